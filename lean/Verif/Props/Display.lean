import Verif.Model.Display
import Verif.Props.FPIHistory
import Verif.Props.FPIOptimal
import Verif.Props.GreedyRun
import Verif.Props.GreedyExit
import Verif.Props.ScipyFit

/-! C137: what `run(..., disp=True)` prints, and that printing does not change the result. -/

namespace BFit

open Real Classical Finset

noncomputable section

/-! ### KLDivergenceFPI -/

theorem loopD_result (F : FPI) (o : FPIOpts) (disp : Bool) (n : ℕ) (s : FPIState) (out : List Line) :
    (F.loopD o disp n s out).2 = F.loop o n s := by
  induction n generalizing s out with
  | zero => rfl
  | succ n ih =>
    unfold FPI.loopD FPI.loop
    by_cases hc : s.notConverged o
    · rw [if_pos hc, if_pos hc]
      cases F.step o s with
      | error e => rfl
      | ok s' => exact ih _ _
    · rw [if_neg hc, if_neg hc]

theorem loopD_quiet (F : FPI) (o : FPIOpts) (n : ℕ) (s : FPIState) (out : List Line) :
    (F.loopD o false n s out).1 = out := by
  induction n generalizing s out with
  | zero => rfl
  | succ n ih =>
    unfold FPI.loopD
    by_cases hc : s.notConverged o
    · rw [if_pos hc]
      cases F.step o s with
      | error e => rfl
      | ok s' =>
        have := ih s' (out ++ [])
        rw [List.append_nil] at this
        simpa using this
    · rw [if_neg hc]

theorem fpi_step_ok {F : FPI} {o : FPIOpts} {s s' : FPIState} (h : F.step o s = .ok s') :
    ∃ p, F.updateParams s.cs s.es o.optCoeffs o.optExpons = .ok (s'.cs, s'.es) ∧
      maxChange s'.cs s.cs = .ok s'.maxDC ∧ maxChange s'.es s.es = .ok s'.maxDE ∧
      F.goodness s'.cs s'.es = .ok p ∧ s'.performance = s.performance ++ [p] ∧
      s'.diffDiv = (match s.performance.getLast? with
        | none => s.diffDiv
        | some q => (p.kl - q.kl).abs) := by
  unfold FPI.step at h
  split at h
  · simp [raise] at h
  split at h
  · simp at h
  rename_i cs es hu
  split at h
  · simp at h
  rename_i dc hdc
  split at h
  · simp at h
  rename_i de hde
  split at h
  · simp at h
  rename_i p hp
  simp only [Except.ok.injEq] at h
  subst h
  exact ⟨p, hu, hdc, hde, hp, rfl, rfl⟩

theorem loopD_rows (F : FPI) (o : FPIOpts) (n : ℕ) (s s' : FPIState) (h : F.loop o n s = .ok s') :
    ∃ (tr : ℕ → List XR × List XR) (new : List Perf) (rows : List Line),
      (∀ out, (F.loopD o true n s out).1 = out ++ rows) ∧ rows.length = new.length ∧
      s'.performance = s.performance ++ new ∧ tr 0 = (s.cs, s.es) ∧ tr new.length = (s'.cs, s'.es) ∧
      ∀ j p, new[j]? = some p →
        F.updateParams (tr j).1 (tr j).2 o.optCoeffs o.optExpons = .ok (tr (j + 1)) ∧
        F.goodness (tr (j + 1)).1 (tr (j + 1)).2 = .ok p ∧
        ∃ dc de dd, rows[j]? = some (.fpiRow (s.performance.length + j + 1) p dc de dd) ∧
          maxChange (tr (j + 1)).1 (tr j).1 = .ok dc ∧ maxChange (tr (j + 1)).2 (tr j).2 = .ok de ∧
          dd = (match (s.performance ++ new.take j).getLast? with
            | none => s.diffDiv
            | some q => (p.kl - q.kl).abs) := by
  induction n generalizing s with
  | zero =>
    simp only [FPI.loop, Except.ok.injEq] at h
    subst h
    exact ⟨fun _ => (s.cs, s.es), [], [], by simp [FPI.loopD], rfl, by simp, rfl, rfl, by simp⟩
  | succ n ih =>
    unfold FPI.loop at h
    by_cases hc : s.notConverged o
    · rw [if_pos hc] at h
      cases hs : F.step o s with
      | error e => rw [hs] at h; simp at h
      | ok s1 =>
        rw [hs] at h
        obtain ⟨p, h1, h2, h3, h4, h5, h6⟩ := fpi_step_ok hs
        obtain ⟨tr, new, rows, g1, g2, g3, g4, g5, g6⟩ := ih s1 h
        have hrow : s1.row = [.fpiRow (s.performance.length + 1) p s1.maxDC s1.maxDE s1.diffDiv] := by
          unfold FPIState.row
          rw [h5]
          simp
        refine ⟨consSeq (s.cs, s.es) tr, p :: new, s1.row ++ rows, ?_, by simp [hrow, g2],
          by rw [g3, h5]; simp, rfl, g5, ?_⟩
        · intro out
          unfold FPI.loopD
          rw [if_pos hc, hs]
          simp only [if_true]
          rw [g1]
          simp
        · intro j q hj
          cases j with
          | zero =>
            simp only [List.getElem?_cons_zero, Option.some.injEq] at hj
            subst hj
            refine ⟨?_, ?_, s1.maxDC, s1.maxDE, s1.diffDiv, by simp [hrow], ?_, ?_, by simpa using h6⟩
            · show F.updateParams s.cs s.es _ _ = .ok (tr 0)
              rw [h1, g4]
            · show F.goodness (tr 0).1 (tr 0).2 = _
              rw [g4]; exact h4
            · show maxChange (tr 0).1 s.cs = _
              rw [g4]; exact h2
            · show maxChange (tr 0).2 s.es = _
              rw [g4]; exact h3
          | succ j =>
            simp only [List.getElem?_cons_succ] at hj
            obtain ⟨a1, a2, dc, de, dd, a3, a4, a5, a6⟩ := g6 j q hj
            refine ⟨a1, a2, dc, de, dd, ?_, a4, a5, ?_⟩
            · rw [hrow]
              simp only [List.cons_append, List.nil_append, List.getElem?_cons_succ, a3, h5, List.length_append,
                List.length_singleton]
              congr 2
              omega
            · rw [a6, h5]
              simp only [List.take_succ_cons, List.append_assoc, List.cons_append, List.nil_append]
              cases hl : (s.performance ++ p :: new.take j).getLast? with
              | none => simp at hl
              | some q' => rfl
    · rw [if_neg hc] at h
      simp only [Except.ok.injEq] at h
      subst h
      exact ⟨fun _ => (s.cs, s.es), [], [], by simp [FPI.loopD, hc], rfl, by simp, rfl, rfl, by simp⟩

/-- `d` is the largest absolute difference of the entries of two lists of finite numbers. -/
def IsLargestChange (new old : List XR) (d : XR) : Prop :=
  ∀ a b : List ℝ, new = fins a → old = fins b → a.length = b.length →
    ∃ M : ℝ, d = XR.fin M ∧ (∃ k < a.length, |vec a k - vec b k| = M) ∧ ∀ k < a.length, |vec a k - vec b k| ≤ M

theorem isLargestChange_of {new old : List XR} {d : XR} (h : maxChange new old = .ok d) : IsLargestChange new old d := by
  rintro a b rfl rfl hl
  have key : maxChange (fins a) (fins b) = npMax (fins ((List.zipWith (fun u v => u - v) a b).map fun z => |z|)) := by
    unfold maxChange
    rw [zipWith_fins (g := fun u v => u - v) (by simp)]
    simp [fins]
  by_cases hne : (List.zipWith (fun u v => u - v) a b).map (fun z => |z|) = []
  · rw [key, hne] at h
    simp [fins, npMax, raise] at h
  obtain ⟨M, h1, h2, h3⟩ := npMax_fins hne
  rw [key, h2] at h
  simp only [Except.ok.injEq] at h
  have hval : ∀ k (hk : k < a.length), (List.zipWith (fun u v => u - v) a b)[k]'(by simp; omega) = vec a k - vec b k := by
    intro k hk
    have hk' : k < b.length := by omega
    simp [vec, hk, hk']
  refine ⟨M, h.symm, ?_, fun k hk => h3 _ ?_⟩
  · obtain ⟨z, hz, rfl⟩ := List.mem_map.mp h1
    obtain ⟨k, hk, rfl⟩ := List.getElem_of_mem hz
    have hk' : k < a.length := by simp at hk; omega
    exact ⟨k, hk', by rw [hval k hk']⟩
  · rw [List.mem_map]
    exact ⟨_, List.getElem_mem (show k < _ by simp; omega), by rw [hval k hk]⟩

/-- **C137.**  Whether `KLDivergenceFPI.run` prints or not, it returns the same result or raises the same exception. -/
theorem C137_fpi_result (F : FPI) (c0 e0 : PyObj) (o : FPIOpts) (disp : Bool) :
    (F.runD c0 e0 o disp).2 = F.run c0 e0 o := by
  cases c0 with
  | arr c =>
    cases e0 with
    | arr e =>
      unfold FPI.runD FPI.run
      simp only
      by_cases h1 : c.shape.map Int.ofNat ≠ [F.model.nbasis]
      · rw [if_pos h1, if_pos h1]
      by_cases h2 : e.shape.map Int.ofNat ≠ [F.model.nbasis]
      · rw [if_neg h1, if_neg h1, if_pos h2, if_pos h2]
      rw [if_neg h1, if_neg h1, if_neg h2, if_neg h2,
        ← loopD_result F o disp o.maxiter.toNat ⟨c.data, e.data, XR.pinf, XR.pinf, XR.pinf, []⟩
          (if disp then [.rule, .heading, .rule] else [])]
      rcases F.loopD o disp o.maxiter.toNat ⟨c.data, e.data, XR.pinf, XR.pinf, XR.pinf, []⟩
        (if disp then [.rule, .heading, .rule] else []) with ⟨out, _ | s⟩ <;> rfl
    | _ => rfl
  | _ => rfl

/-- **C137.**  Without `disp` nothing is printed. -/
theorem C137_fpi_quiet (F : FPI) (c0 e0 : PyObj) (o : FPIOpts) : (F.runD c0 e0 o false).1 = [] := by
  unfold FPI.runD
  split
  · rename_i c e
    split
    · rfl
    split
    · rfl
    have := loopD_quiet F o o.maxiter.toNat ⟨c.data, e.data, XR.pinf, XR.pinf, XR.pinf, []⟩ []
    simp only [Bool.false_eq_true, if_false, List.append_nil]
    rcases hh : F.loopD o false o.maxiter.toNat ⟨c.data, e.data, XR.pinf, XR.pinf, XR.pinf, []⟩ [] with ⟨out, _ | s⟩ <;>
      rw [hh] at this <;> exact this
  · rfl

/-- **C137.**  With `disp` a successful `KLDivergenceFPI.run` prints a heading, one row per update and the closing
lines with the returned values.  Row `i` has the number `i + 1`, the measures in `performance[i]`, the largest
absolute change of a coefficient and of an exponent in that update, and the absolute change of the divergence; the
last is infinite in the first row. -/
theorem C137_fpi (F : FPI) (c0 e0 : ND XR) (o : FPIOpts) (r : FPIResult) (h : F.run (.arr c0) (.arr e0) o = .ok r) :
    ∃ (tr : ℕ → List XR × List XR) (rows : List Line),
      RunTrace F c0 e0 o r rows.length tr ∧
      (F.runD (.arr c0) (.arr e0) o true).1 =
        [.rule, .heading, .rule] ++ rows ++ [.rule, .success r.success, .time, .coeffs r.coeffs, .exps r.exps] ∧
      ∀ i p, r.performance[i]? = some p → ∃ dc de dd, rows[i]? = some (.fpiRow (i + 1) p dc de dd) ∧
        IsLargestChange (tr (i + 1)).1 (tr i).1 dc ∧ IsLargestChange (tr (i + 1)).2 (tr i).2 de ∧
        (i = 0 → dd = XR.pinf) ∧
        ∀ j q, i = j + 1 → r.performance[j]? = some q → dd = (p.kl - q.kl).abs := by
  unfold FPI.run at h
  simp only at h
  split at h
  · simp [raise] at h
  rename_i hs1
  split at h
  · simp [raise] at h
  rename_i hs2
  split at h
  · simp at h
  rename_i s hs
  simp only [Except.ok.injEq] at h
  obtain ⟨tr, new, rows, g1, g2, g3, g4, g5, g6⟩ := loopD_rows F o _ _ _ hs
  simp only [List.nil_append] at g3
  subst h
  refine ⟨tr, rows, ⟨g4, by rw [g2]; exact g5, ?_, by simp [g3, g2], ?_, rfl⟩, ?_, ?_⟩
  · intro j hj
    exact (g6 j new[j] (List.getElem?_eq_getElem (by omega))).1
  · intro j hj
    simp only [g3] at hj ⊢
    exact (g6 j new[j] (List.getElem?_eq_getElem hj)).2.1
  · unfold FPI.runD
    simp only
    rw [if_neg hs1, if_neg hs2]
    have q1 := g1 [.rule, .heading, .rule]
    have q2 := loopD_result F o true o.maxiter.toNat ⟨c0.data, e0.data, XR.pinf, XR.pinf, XR.pinf, []⟩
      [.rule, .heading, .rule]
    rw [hs] at q2
    simp only [if_true]
    rcases hh : F.loopD o true o.maxiter.toNat ⟨c0.data, e0.data, XR.pinf, XR.pinf, XR.pinf, []⟩
      [.rule, .heading, .rule] with ⟨out, res⟩
    rw [hh] at q1 q2
    simp only at q1 q2
    subst q1 q2
    rfl
  · intro i p hp
    simp only [g3] at hp ⊢
    obtain ⟨-, -, dc, de, dd, a3, a4, a5, a6⟩ := g6 i p hp
    refine ⟨dc, de, dd, by simpa using a3, isLargestChange_of a4, isLargestChange_of a5, ?_, ?_⟩
    · rintro rfl
      simpa using a6
    · rintro j q rfl hq
      rw [a6]
      have : ([] ++ new.take (j + 1)).getLast? = some q := by
        rw [List.nil_append, List.take_add_one, hq]
        simp
      rw [this]

/-- A run of at least one update to which `C137_fpi` applies; its iterates are finite, so the changes in the first row
are the largest changes of real numbers. -/
example : ∃ (F : FPI) (r : FPIResult) (tr : ℕ → List XR × List XR) (rows : List Line) (p : Perf) (M M' : ℝ),
    F.run (.arr (ND.vec (fins [1]))) (.arr (ND.vec (fins [1]))) ⟨true, true, 5, XR.fin 0, XR.fin 0, XR.fin 0⟩ = .ok r ∧
    RunTrace F (ND.vec (fins [1])) (ND.vec (fins [1])) ⟨true, true, 5, XR.fin 0, XR.fin 0, XR.fin 0⟩ r rows.length tr ∧
    rows[0]? = some (.fpiRow 1 p (XR.fin M) (XR.fin M') XR.pinf) := by
  obtain ⟨F, h1, h2⟩ := demo_isFPI 2 (by norm_num)
  set o : FPIOpts := ⟨true, true, 5, XR.fin 0, XR.fin 0, XR.fin 0⟩ with ho
  obtain ⟨r, n, cs, es, h3, h4, h5, h6⟩ := C39_total h2 demo_W (by norm_num) demo_sees o (.inl rfl) [1] [1]
    ⟨rfl, rfl, by simp, by simp⟩
  obtain ⟨tr, rows, g1, g2, g3⟩ := C137_fpi F _ _ o r h3
  have hpos : 0 < r.performance.length := by
    rw [List.length_pos_iff]
    intro h0
    have hrun := h3
    unfold FPI.run at hrun
    simp only at hrun
    split at hrun
    · simp [raise] at hrun
    split at hrun
    · simp at hrun
    rename_i s hs
    simp only [Except.ok.injEq] at hrun
    obtain ⟨k, tr', new, a1, a2, a3, -, -, -, -, a8, -, a10, -⟩ := loop_trace F o _ _ _ hs
    have hp : s.performance = [] := by rw [← h0, ← hrun]
    have : k = 0 := by rw [hp] at a3; simp at a3; rw [← a2, a3]; rfl
    have hs' := a10 this
    refine a8 (by simp [this, ho]) ?_
    rw [hs']
    exact ⟨.inl trivial, trivial⟩
  obtain ⟨dc, de, dd, q1, q2, q3, q4, -⟩ := g3 0 _ (List.getElem?_eq_getElem hpos)
  have hn : 0 < n := by rw [← h5.len]; exact hpos
  have t0 : tr 0 = (fins [1], fins [1]) := g1.start
  have t0' : (fins (cs 0), fins (es 0)) = (fins [1], fins [1]) := h5.start
  have t1 : tr 1 = (fins (cs 1), fins (es 1)) := by
    have e1 := g1.step 0 (by rw [← g1.len]; exact hpos)
    have e2 := h5.step 0 hn
    rw [t0] at e1
    simp only at e2
    have t0'' := t0'
    simp only [Prod.mk.injEq] at t0''
    rw [t0''.1, t0''.2] at e2
    rw [e2] at e1
    simpa using e1.symm
  obtain ⟨M, rfl, -⟩ := q2 (cs 1) [1] (by rw [t1]) (by rw [t0]) (h6 1 hn).clen
  obtain ⟨M', rfl, -⟩ := q3 (es 1) [1] (by rw [t1]) (by rw [t0]) (h6 1 hn).elen
  exact ⟨F, r, tr, rows, _, M, M', h3, g1, by rw [q1, q4 rfl]⟩

/-! ### GreedyStrategy -/

theorem gloopD_result (E : GEnv) (o : GOpts) (f : XR) (disp : Bool) (n : ℕ) (s : GState) (out : List Line) :
    (E.loopD o f disp n s out).2 = E.loop o f n s := by
  induction n generalizing s out with
  | zero => rfl
  | succ n ih =>
    unfold GEnv.loopD GEnv.loop
    by_cases hc : s.continues o
    · rw [if_pos hc, if_pos hc]
      cases E.step o f s with
      | error e => rfl
      | ok s' => exact ih _ _
    · rw [if_neg hc, if_neg hc]

theorem gloopD_quiet (E : GEnv) (o : GOpts) (f : XR) (n : ℕ) (s : GState) (out : List Line) :
    (E.loopD o f false n s out).1 = out := by
  induction n generalizing s out with
  | zero => rfl
  | succ n ih =>
    unfold GEnv.loopD
    by_cases hc : s.continues o
    · rw [if_pos hc]
      cases E.step o f s with
      | error e => rfl
      | ok s' =>
        have := ih s' (out ++ [])
        rw [List.append_nil] at this
        simpa using this
    · rw [if_neg hc]

/-- **C137.**  Whether `GreedyStrategy.run` prints or not, it returns the same result and changes the object in the
same way, or raises the same exception. -/
theorem C137_greedy_result (E : GEnv) (ob : GObj) (factor : PyObj) (o : GOpts) (disp : Bool) :
    (E.runD ob factor o disp).2 = E.run ob factor o := by
  cases factor with
  | float f =>
    unfold GEnv.runD GEnv.run
    simp only
    by_cases hf : f ≤ XR.fin 0
    · rw [if_pos hf, if_pos hf]
    rw [if_neg hf, if_neg hf]
    cases E.start ob f with
    | error e => rfl
    | ok s =>
      simp only
      rw [← gloopD_result E o f disp (5 * (o.maxFuncs - 1).toNat) s (if disp then s.head else [])]
      rcases E.loopD o f disp (5 * (o.maxFuncs - 1).toNat) s (if disp then s.head else []) with ⟨out, _ | s'⟩
      · rfl
      · simp only
        cases E.finish o s' with
        | error e => rfl
        | ok r => rfl
  | _ => rfl

/-- **C137.**  Without `disp` nothing is printed. -/
theorem C137_greedy_quiet (E : GEnv) (ob : GObj) (factor : PyObj) (o : GOpts) :
    (E.runD ob factor o false).1 = [] := by
  unfold GEnv.runD
  split
  · rename_i f
    split
    · rfl
    cases E.start ob f with
    | error e => rfl
    | ok s =>
      have := gloopD_quiet E o f (5 * (o.maxFuncs - 1).toNat) s []
      simp only [Bool.false_eq_true, if_false, List.append_nil]
      rcases hh : E.loopD o f false (5 * (o.maxFuncs - 1).toNat) s [] with ⟨out, _ | s'⟩
      · rw [hh] at this; exact this
      · rw [hh] at this
        simp only at this ⊢
        subst this
        cases E.finish o s' with
        | error e => rfl
        | ok r => rfl
  · rfl

theorem XR.le_of_not_lt {x y : XR} (hx : x ≠ XR.nan) (hy : y ≠ XR.nan) (h : ¬ y < x) : x ≤ y := by
  cases x <;> cases y <;> first
    | exact absurd rfl hx
    | exact absurd rfl hy
    | trivial
    | exact absurd trivial h
    | exact not_lt.mp (fun hc => h (by simpa using hc))

/-- The row of a state with a history. -/
theorem row_of_history {E : GEnv} {ob : GObj} {s : GState} {hist : List Accepted} {last : Accepted}
    (H : History E ob s hist last) (h1 : last.ns = s.numS) (h2 : last.np = s.numP) :
    ∃ m d, hist = m ++ [last] ∧
      s.row = [.greedyRow ((last.ns + last.np : ℤ) + 1 - (ob.numS + ob.numP)) last.ns last.np last.err d] ∧
      (m = [] → d = (last.value - XR.pinf).abs) ∧
      ∀ b, m.getLast? = some b → d = (last.value - b.value).abs := by
  have hne : hist ≠ [] := by rintro rfl; simpa using H.isLast
  have hsplit : hist = hist.dropLast ++ [last] := by
    have := List.dropLast_append_getLast hne
    have h' := H.isLast
    rw [List.getLast?_eq_getLast_of_ne_nil hne, Option.some.injEq] at h'
    rw [h'] at this
    exact this.symm
  refine ⟨hist.dropLast, (s.best - s.prev).abs, hsplit, ?_, ?_, ?_⟩
  · unfold GState.row
    have : s.errArr.getLast? = some last.err := by
      rw [H.errs, hsplit]; simp
    rw [this]
    have := H.count
    simp only [h1, h2]
    congr 2
    omega
  · intro hm
    rw [H.prevValue, hm, H.lastValue]; rfl
  · intro b hb
    rw [H.prevValue, hb, H.lastValue]

theorem step_progress {E : GEnv} {o : GOpts} {f : XR} {s s' : GState}
    (hnan : ∀ ns np p v, E.obj ns np p = .ok v → v ≠ XR.nan) (hb : s.best ≠ XR.nan) (h : E.step o f s = .ok s') :
    s'.redum = s.redum + 1 ∨ s'.paramsIter.length = s.paramsIter.length + 1 := by
  unfold GEnv.step at h
  split at h
  · simp at h
  split at h
  · simp at h
  rename_i bp isS _
  cases bp with
  | none => simp [GEnv.finishRound, raise] at h
  | some bp =>
  unfold GEnv.finishRound at h
  simp only at h
  cases hop : E.optGlobal s.round (if isS then s.numS + E.choice.inc else s.numS)
      (if isS then s.numP else s.numP + E.choice.inc) bp with
  | error e => rw [hop] at h; simp at h
  | ok op =>
  rw [hop] at h
  simp only at h
  cases hv : E.obj (if isS then s.numS + E.choice.inc else s.numS)
      (if isS then s.numP else s.numP + E.choice.inc) op with
  | error e => rw [hv] at h; simp at h
  | ok v =>
  rw [hv] at h
  simp only at h
  by_cases hnf : roundFails (if isS then s.numS + E.choice.inc else s.numS)
      (if isS then s.numP else s.numP + E.choice.inc) op v s.best
  · rw [if_pos hnf] at h
    simp only [Except.ok.injEq] at h
    subst h
    exact .inl rfl
  rw [if_neg hnf, if_pos (XR.le_of_not_lt (hnan _ _ _ _ hv) hb fun hc => hnf (.inr (.inr hc)))] at h
  cases hg : E.gof (if isS then s.numS + E.choice.inc else s.numS)
      (if isS then s.numP else s.numP + E.choice.inc) op with
  | error e => rw [hg] at h; simp at h
  | ok err =>
  rw [hg] at h
  simp only [Except.ok.injEq] at h
  subst h
  exact .inr (by simp)

theorem history_step' {E : GEnv} {ob : GObj} {o : GOpts} {f : XR} {s s' : GState}
    (hE : E.SizeChecked) (hnan : ∀ ns np p v, E.obj ns np p = .ok v → v ≠ XR.nan)
    {hist : List Accepted} {last : Accepted} (H : History E ob s hist last) (h1 : last.ns = s.numS)
    (h2 : last.np = s.numP) (h : E.step o f s = .ok s') :
    ∃ hist' last', History E ob s' hist' last' ∧ last'.ns = s'.numS ∧ last'.np = s'.numP ∧
      (hist' = hist ∨ hist' = hist ++ [last']) := by
  obtain ⟨hist', last', H', hpre⟩ := history_step H h
  have hlen : hist'.length = s'.paramsIter.length := by rw [← H'.params]; simp
  have hlen0 : hist.length = s.paramsIter.length := by rw [← H.params]; simp
  obtain ⟨ext, rfl⟩ := hpre
  rw [List.length_append] at hlen
  have hmem := List.mem_of_getLast? H.isLast
  rcases (step_cases h).1 with ⟨a1, a2, a3, a4, a5, a6, a7, a8, a9, a10, a11, a12⟩ |
    ⟨op, v, err, a1, a2, a3, a4, a5, a6, a7, b1, b2, b3, b4, b5, b6, b7, b8⟩ |
    ⟨a1, a2, a3, a5, a6, a7, a8, a9, a10, a11, a12⟩
  · rw [a11] at hlen
    have : ext = [] := List.length_eq_zero_iff.mp (by omega)
    subst this
    have hl : last' = last := by
      have q := H'.isLast
      rw [List.append_nil, H.isLast] at q
      simpa using q.symm
    exact ⟨hist ++ [], last', H', by rw [hl, a1, h1], by rw [hl, a2, h2], .inl (by simp)⟩
  · rw [b7, List.length_append] at hlen
    have : ext.length = 1 := by simp at hlen; omega
    obtain ⟨x, rfl⟩ := List.length_eq_one_iff.mp this
    have hl : last' = x := by
      have q := H'.isLast
      simpa using q.symm
    subst hl
    have l1 := hE _ _ _ _ (H'.valid last' (by simp)).1
    have l2 := hE _ _ _ _ a4
    rw [H'.lastParams, b2] at l1
    have g1 := H'.lastS
    have g2 := H'.lastP
    exact ⟨hist ++ [last'], last', H', by omega, by omega, .inr rfl⟩
  · have hb : s.best ≠ XR.nan := by
      rw [← H.lastValue]
      exact hnan _ _ _ _ (H.valid last hmem).1
    rcases step_progress hnan hb h with q | q
    · omega
    · rw [a11] at q; omega

/-- The row of the table for the accepted set number `k`, with the counts `ns0`, `np0` of the object before the run:
its counts and errors, and the change of the objective from the accepted set before. -/
def IsGreedyRow (hist : List Accepted) (ns0 np0 k : ℕ) (l : Line) : Prop :=
  ∃ a d, hist[k]? = some a ∧
    l = .greedyRow ((a.ns + a.np : ℤ) + 1 - (ns0 + np0)) a.ns a.np a.err d ∧
    (k = 0 → d = (a.value - XR.pinf).abs) ∧ ∀ j b, k = j + 1 → hist[j]? = some b → d = (a.value - b.value).abs

theorem IsGreedyRow.mono {hist hist' : List Accepted} {ns0 np0 k : ℕ} {l : Line} (h : IsGreedyRow hist ns0 np0 k l)
    (hp : hist <+: hist') : IsGreedyRow hist' ns0 np0 k l := by
  obtain ⟨a, d, h1, h2, h3, h4⟩ := h
  obtain ⟨ext, rfl⟩ := hp
  have hk := (List.getElem?_eq_some_iff.mp h1).1
  refine ⟨a, d, by rw [List.getElem?_append_left hk, h1], h2, h3, ?_⟩
  rintro j b rfl hb
  rw [List.getElem?_append_left (by omega)] at hb
  exact h4 j b rfl hb

theorem row_isGreedyRow {E : GEnv} {ob : GObj} {s : GState} {hist : List Accepted} {last : Accepted}
    (H : History E ob s hist last) (h1 : last.ns = s.numS) (h2 : last.np = s.numP) :
    ∃ l, s.row = [l] ∧ IsGreedyRow hist ob.numS ob.numP (hist.length - 1) l := by
  obtain ⟨m, d, rfl, h3, h4, h5⟩ := row_of_history H h1 h2
  refine ⟨_, h3, last, d, by simp, rfl, ?_, ?_⟩
  · intro hm
    exact h4 (List.length_eq_zero_iff.mp (by simpa using hm))
  · intro j b hj hb
    have hj : m.length = j + 1 := by simpa using hj
    rw [List.getElem?_append_left (by omega)] at hb
    apply h5
    rw [List.getLast?_eq_getElem?, hj]
    exact hb

theorem gloopD_rows {E : GEnv} {ob : GObj} {o : GOpts} {f : XR} (hE : E.SizeChecked)
    (hnan : ∀ ns np p v, E.obj ns np p = .ok v → v ≠ XR.nan) (n : ℕ) {s s' : GState} {hist : List Accepted}
    {last : Accepted} (H : History E ob s hist last) (h1 : last.ns = s.numS) (h2 : last.np = s.numP)
    (h : E.loop o f n s = .ok s') :
    ∃ (hist' : List Accepted) (last' : Accepted) (rows : List Line) (k : ℕ → ℕ), History E ob s' hist' last' ∧
      last'.ns = s'.numS ∧ last'.np = s'.numP ∧ hist <+: hist' ∧ rows.length ≤ n ∧ Rounds E o f s rows.length s' ∧
      (∀ out, (E.loopD o f true n s out).1 = out ++ rows) ∧
      k 0 + 1 = hist.length ∧ k rows.length + 1 = hist'.length ∧
      (∀ i < rows.length, k (i + 1) = k i ∨ k (i + 1) = k i + 1) ∧
      ∀ i l, rows[i]? = some l → IsGreedyRow hist' ob.numS ob.numP (k (i + 1)) l := by
  have hpos : ∀ {s hist last}, History E ob s hist last → 0 < hist.length := fun H =>
    List.length_pos_of_mem (List.mem_of_getLast? H.isLast)
  induction n generalizing s hist last with
  | zero =>
    simp only [GEnv.loop, Except.ok.injEq] at h
    subst h
    have := hpos H
    exact ⟨hist, last, [], fun _ => hist.length - 1, H, h1, h2, List.prefix_rfl, le_rfl, .refl, by simp [GEnv.loopD],
      Nat.sub_add_cancel this, Nat.sub_add_cancel this, by simp, by simp⟩
  | succ n ih =>
    unfold GEnv.loop at h
    by_cases hc : s.continues o
    · rw [if_pos hc] at h
      cases hs : E.step o f s with
      | error e => rw [hs] at h; simp at h
      | ok s1 =>
        rw [hs] at h
        obtain ⟨hist1, last1, H1, a1, a2, a3⟩ := history_step' hE hnan H h1 h2 hs
        obtain ⟨hist', last', rows, k, H', g1, g2, g3, g4, gr, g5, g6, g7, g8, g9⟩ := ih H1 a1 a2 h
        obtain ⟨l, hl, hlr⟩ := row_isGreedyRow H1 a1 a2
        have p0 := hpos H
        have p1 := hpos H1
        have hpre : hist <+: hist1 := by
          rcases a3 with rfl | rfl
          · exact List.prefix_rfl
          · exact List.prefix_append _ _
        have hlen : hist1.length = hist.length ∨ hist1.length = hist.length + 1 := by
          rcases a3 with rfl | rfl
          · exact .inl rfl
          · exact .inr (by simp)
        refine ⟨hist', last', l :: rows, consSeq (hist.length - 1) k, H', g1, g2, hpre.trans g3, by simp [g4], gr.head hc hs, ?_, ?_,
          g7, ?_, ?_⟩
        · intro out
          unfold GEnv.loopD
          rw [if_pos hc, hs]
          simp only [if_true]
          rw [g5, hl]
          simp
        · show hist.length - 1 + 1 = _
          omega
        · intro i hi
          cases i with
          | zero =>
            show k 0 = hist.length - 1 ∨ k 0 = hist.length - 1 + 1
            omega
          | succ i => exact g8 i (by simpa using hi)
        · intro i l' hl'
          cases i with
          | zero =>
            simp only [List.getElem?_cons_zero, Option.some.injEq] at hl'
            subst hl'
            have : k 0 = hist1.length - 1 := by omega
            show IsGreedyRow hist' _ _ (k 0) l
            rw [this]
            exact hlr.mono g3
          | succ i => exact g9 i l' (by simpa using hl')
    · rw [if_neg hc] at h
      simp only [Except.ok.injEq] at h
      subst h
      have := hpos H
      exact ⟨hist, last, [], fun _ => hist.length - 1, H, h1, h2, List.prefix_rfl, by simp, .refl,
        by simp [GEnv.loopD, hc],
        Nat.sub_add_cancel this, Nat.sub_add_cancel this, by simp, by simp⟩

/-- **C137.**  With `disp` a successful `GreedyStrategy.run` on an object whose model has the counts of the object
prints a heading, a row for the one-function solution, one row per round and the closing lines with the returned
values.  There are at most `5 (max_numb_funcs - 1)` rounds.  The row of a round belongs to the parameters accepted
last: a round that accepts new ones moves to the next entry of `parameters_iteration` and `performance`, any other
round repeats the row before.  A row has the counts and errors of the entry and the absolute change of the objective
from the entry before it (from infinity for the first).  The first column is the number of functions for a new
object; for an object used before it is smaller by the number of functions, less one, that the object had. -/
theorem C137_greedy (E : GEnv) (hE : E.SizeChecked) (hnan : ∀ ns np p v, E.obj ns np p = .ok v → v ≠ XR.nan)
    (ob : GObj) (hms : ob.modelS = ob.numS) (hmp : ob.modelP = ob.numP) (factor : PyObj) (o : GOpts) (r : GResult)
    (ob' : GObj) (h : E.run ob factor o = .ok (r, ob')) :
    ∃ (hist : List Accepted) (first : Accepted) (rows : List Line) (k : ℕ → ℕ),
      hist.map Accepted.params = r.parametersIteration ∧ r.performance = ob.errArr ++ hist.map Accepted.err ∧
      (∀ a ∈ hist, E.obj a.ns a.np a.params = .ok a.value ∧ E.gof a.ns a.np a.params = .ok a.err) ∧
      hist[0]? = some first ∧ E.oneFun ob.numS ob.numP = .ok first.params ∧
      (∃ last, hist.getLast? = some last ∧ last.ns = r.numS ∧ last.np = r.numP) ∧
      (E.runD ob factor o true).1 =
        [.rule, .heading, .rule, .greedyRow 1 ob.numS ob.numP first.err XR.nan] ++ rows ++
          [.rule, .success r.success, .numS r.numS, .numP r.numP, .exitInfo r.exitInformation, .objective r.fun_,
            .coeffs r.coeffs, .exps r.exps] ∧
      rows.length ≤ 5 * (o.maxFuncs - 1).toNat ∧
      (∃ f s0 s, factor = .float f ∧ E.start ob f = .ok s0 ∧ Rounds E o f s0 rows.length s ∧ E.finish o s = .ok (r, ob')) ∧
      k 0 = 0 ∧ k rows.length + 1 = hist.length ∧ (∀ i < rows.length, k (i + 1) = k i ∨ k (i + 1) = k i + 1) ∧
      ∀ i l, rows[i]? = some l → IsGreedyRow hist ob.numS ob.numP (k (i + 1)) l := by
  cases factor with
  | float f =>
    unfold GEnv.run at h
    simp only at h
    by_cases hf : f ≤ XR.fin 0
    · rw [if_pos hf] at h; simp [raise] at h
    rw [if_neg hf] at h
    cases hs : E.start ob f with
    | error e => rw [hs] at h; simp at h
    | ok s0 =>
      rw [hs] at h
      simp only at h
      cases hl : E.loop o f (5 * (o.maxFuncs - 1).toNat) s0 with
      | error e => rw [hl] at h; simp at h
      | ok s =>
        rw [hl] at h
        simp only at h
        obtain ⟨first, H⟩ := history_start hs hms hmp
        obtain ⟨g, err, v, q1, q2, q3, rfl⟩ := start_ok hs
        obtain ⟨a, e1, e2, e3, e4⟩ := H.first
        simp only [List.head?_cons, Option.some.injEq] at e1
        subst e1
        have herr : err = first.err := by
          have := H.errs
          simpa using this
        obtain ⟨hist, last, rows, k, H', g1, g2, g3, g4, gr, g5, g6, g7, g8, g9⟩ :=
          gloopD_rows hE hnan _ H e2 e3 hl
        obtain ⟨info, w, -, -, -, hr⟩ := finish_ok h
        refine ⟨hist, first, rows, k, ?_, ?_, H'.valid, ?_, by rw [← hms, ← hmp]; exact e4,
          ⟨last, H'.isLast, by rw [g1, hr], by rw [g2, hr]⟩, ?_, g4, ⟨f, _, s, rfl, hs, gr, h⟩,
          by simpa using g6, g7, g8, g9⟩
        · rw [hr]; exact H'.params
        · rw [hr]; exact H'.errs
        · obtain ⟨ext, rfl⟩ := g3
          rfl
        · unfold GEnv.runD
          simp only
          rw [if_neg hf, hs]
          simp only [if_true]
          set s0 : GState := { numS := ob.numS, numP := ob.numP, modelS := ob.modelS, modelP := ob.modelP,
                               errArr := ob.errArr ++ [err], gparams := g, factor := f, numbFuncs := 1,
                               prev := XR.pinf, best := v, paramsIter := [g], redum := 0, round := 0 } with hs0
          have c1 := g5 s0.head
          have c2 := gloopD_result E o f true (5 * (o.maxFuncs - 1).toNat) s0 s0.head
          rw [hl] at c2
          rcases hh : E.loopD o f true (5 * (o.maxFuncs - 1).toNat) s0 s0.head with ⟨out, res⟩
          rw [hh] at c1 c2
          simp only at c1 c2
          subst c1 c2
          simp only [h]
          have : s0.head = [.rule, .heading, .rule, .greedyRow 1 ob.numS ob.numP first.err XR.nan] := by
            simp [GState.head, hs0, herr]
          rw [this]
  | _ => simp [GEnv.run, raise] at h

theorem toyEnv_not_nan (c : Choice) (val : ℕ → ℝ) : ∀ ns np p v,
    (toyEnv c fun n => XR.fin (val n)).obj ns np p = .ok v → v ≠ XR.nan := by
  intro ns np p v h
  have hl := toyEnv_sizeChecked c _ _ _ _ _ h
  have : (toyEnv c fun n => XR.fin (val n)).obj ns np p = .ok (XR.fin (val (ns + np))) := if_pos hl
  rw [this] at h
  simp only [Except.ok.injEq] at h
  rw [← h]
  simp

/-- A run that accepts a second function: the last row shows two functions of type s and the change of the objective
from 1 to 1/2. -/
example : ∃ (E : GEnv) (o : GOpts) (r : GResult) (ob' : GObj) (rows : List Line) (p : Perf),
    E.run GObj.fresh (.float (XR.fin 2)) o = .ok (r, ob') ∧ rows.length ≤ 5 ∧
    (E.runD GObj.fresh (.float (XR.fin 2)) o true).1.drop 4 = rows ++ [.rule, .success r.success, .numS 2, .numP 0,
      .exitInfo .maxReached, .objective (XR.fin (1 / 2)), .coeffs r.coeffs, .exps r.exps] ∧
    rows.getLast? = some (.greedyRow 2 2 0 p (XR.fin (1 / 2))) := by
  have hrun := toy_one_round .pickOne 1 (1 / 2) 1e-8 2 (by norm_num) (by norm_num) (by norm_num)
      (.inl (by decide)) (.inl (by decide))
  obtain ⟨hist, first, rows, k, h1, h2, h3, h4, h5, ⟨last, l1, l2, l3⟩, h6, h7, -, h8, h9, h10, h11⟩ := C137_greedy _
    (toyEnv_sizeChecked .pickOne _) (toyEnv_not_nan .pickOne fun n => if n = 1 then 1 else 1 / 2) GObj.fresh rfl rfl
    _ _ _ _ hrun
  have hval : ∀ a ∈ hist, a.value = XR.fin (if a.ns + a.np = 1 then 1 else 1 / 2) := by
    intro a ha
    have h := (h3 a ha).1
    have hl := toyEnv_sizeChecked .pickOne _ _ _ _ _ h
    rw [show (toyEnv .pickOne fun n => XR.fin (if n = 1 then 1 else 1 / 2)).obj a.ns a.np a.params =
      .ok (XR.fin (if a.ns + a.np = 1 then 1 else 1 / 2)) from if_pos hl] at h
    simpa using h.symm
  have hlen : hist.length = 2 := by
    have := congrArg List.length h1
    simpa using this
  have hn : 0 < rows.length := by
    rcases Nat.eq_zero_or_pos rows.length with h0 | h0
    · rw [h0] at h9; omega
    · exact h0
  obtain ⟨l, hl⟩ : ∃ l, rows[rows.length - 1]? = some l := ⟨_, List.getElem?_eq_getElem (by omega)⟩
  obtain ⟨a, d, c1, c2, -, c4⟩ := h11 _ l hl
  have hk : k (rows.length - 1 + 1) = 1 := by
    rw [Nat.sub_add_cancel hn]; omega
  rw [hk] at c1
  have ha : a = last := by
    rw [List.getLast?_eq_getElem?, hlen] at l1
    rw [c1] at l1
    simpa using l1
  have hd := c4 0 first hk h4
  have hf : first.ns + first.np = 1 := by
    have m := h3 first (List.mem_of_getElem? h4)
    have hl := toyEnv_sizeChecked .pickOne _ _ _ _ _ m.1
    have : first.params = toyParams 1 0 := by
      have e : (toyEnv .pickOne fun n => XR.fin (if n = 1 then 1 else 1 / 2)).oneFun 1 0 = .ok (toyParams 1 0) := rfl
      rw [show GObj.fresh.numS = 1 from rfl, show GObj.fresh.numP = 0 from rfl, e] at h5
      simpa using h5.symm
    rw [this, toyParams_length] at hl
    omega
  have l2' : last.ns = 2 := l2
  have l3' : last.np = 0 := l3
  rw [hval a (List.mem_of_getElem? c1), hval first (List.mem_of_getElem? h4), hf, ha, l2', l3'] at hd
  refine ⟨_, _, _, _, rows, last.err, hrun, by simpa using h7, ?_, ?_⟩
  · rw [h6]
    rfl
  · rw [List.getLast?_eq_getElem?, hl, c2, ha, l2', l3', hd]
    norm_num [GObj.fresh]

/-! ### ScipyFit -/

theorem callbacks_ok {S : SFit} {c0 e0 : List XR} {o : SOpts} (xs : List (List XR)) (out : List Line)
    (h : ∀ x ∈ xs, ∃ p, S.shown c0 e0 o x = .ok p) :
    ∃ rows : List Line, S.callbacks c0 e0 o xs out = (out ++ rows, none) ∧ rows.length = xs.length ∧
      ∀ (i : ℕ) x, xs[i]? = some x → ∃ p, rows[i]? = some (Line.scipyRow p) ∧ S.shown c0 e0 o x = .ok p := by
  induction xs generalizing out with
  | nil => exact ⟨[], by simp [SFit.callbacks], rfl, by simp⟩
  | cons x xs ih =>
    obtain ⟨p, hp⟩ := h x (by simp)
    obtain ⟨rows, h1, h2, h3⟩ := ih (out ++ [.scipyRow p]) fun y hy => h y (by simp [hy])
    refine ⟨.scipyRow p :: rows, ?_, by simp [h2], ?_⟩
    · unfold SFit.callbacks
      rw [hp]
      simp only [h1]
      simp
    · intro i y hy
      cases i with
      | zero =>
        simp only [List.getElem?_cons_zero, Option.some.injEq] at hy
        subst hy
        exact ⟨p, rfl, hp⟩
      | succ i => exact h3 i y (by simpa using hy)

/-- **C137.**  Without `disp` nothing is printed by `ScipyFit.run`, and the callback plays no part. -/
theorem C137_scipy_quiet (S : SFit) (minimize : SProblem → List (List XR) × Py SRes) (c0 e0 : List XR) (o : SOpts) :
    S.runD minimize c0 e0 o false = ([], S.run (fun P => (minimize P).2) c0 e0 o) := by
  unfold SFit.runD SFit.run
  cases S.problem c0 e0 o with
  | error e => rfl
  | ok P =>
    simp only [Bool.false_and, Bool.false_eq_true, if_false]
    cases (minimize P).2 with
    | error e => rfl
    | ok r =>
      simp only [List.append_nil]
      split <;> rename_i hg <;> rw [hg]

/-- **C137.**  With `disp`, starting values of the right length and an optimiser that reports finite iterates of the
length of the starting vector (with non-negative exponents if the model is normalised), `ScipyFit.run` returns the
same result or raises the same exception as without `disp`.  If it returns, it prints one row per reported iterate,
with `goodness_of_fit` of the parameters in that iterate, and the closing lines with the returned values; with the
method slsqp there are a heading and a rule in addition. -/
theorem C137_scipy {S : SFit} {norm : Bool} {Sh : Shape} {N : ℕ} {W f : ℕ → ℝ}
    (hd : FitData S.toFit norm Sh N W f) (hN : 0 < N) (minimize : SProblem → List (List XR) × Py SRes)
    (c0 e0 : List ℝ) (hc : c0.length = Sh.nb) (he : e0.length = Sh.nb) (he0 : norm = true → ∀ a ∈ e0, 0 ≤ a) (o : SOpts)
    (P : SProblem) (hP : S.problem (fins c0) (fins e0) o = .ok P) (xs : List (List ℝ))
    (hxs : (minimize P).1 = xs.map fins) (hlen : ∀ x ∈ xs, x.length = P.x0.length)
    (hpos : norm = true → o.optExpons = true → ∀ x ∈ xs, ∀ a ∈ (if o.optCoeffs then x.drop Sh.nb else x), 0 ≤ a) :
    (S.runD minimize (fins c0) (fins e0) o true).2 = S.run (fun P => (minimize P).2) (fins c0) (fins e0) o ∧
    ∀ r, S.run (fun P => (minimize P).2) (fins c0) (fins e0) o = .ok r →
      ∃ rows : List Line, (S.runD minimize (fins c0) (fins e0) o true).1 =
        (if S.method = .slsqp then [.rule, .heading, .rule] else []) ++ rows ++
          (if S.method = .slsqp then [.rule] else []) ++
          [.success r.success, .time, .message r.message, .coeffs r.coeffs, .exps r.exps] ∧
        rows.length = xs.length ∧
        ∀ (i : ℕ) x, xs[i]? = some x → ∃ p, rows[i]? = some (Line.scipyRow p) ∧
          (o.optCoeffs = true → o.optExpons = true →
            S.goodness (fins (x.take Sh.nb)) (fins (x.drop Sh.nb)) = .ok p) ∧
          (o.optCoeffs = true → o.optExpons = false → S.goodness (fins x) (fins e0) = .ok p) ∧
          (o.optCoeffs = false → o.optExpons = true → S.goodness (fins c0) (fins x) = .ok p) := by
  have good : ∀ c e : List ℝ, c.length = Sh.nb → e.length = Sh.nb → (norm = true → ∀ a ∈ e, 0 ≤ a) →
      ∃ p, S.goodness (fins c) (fins e) = .ok p := by
    intro c e h1 h2 h3
    obtain ⟨M, kl, h4, -⟩ := goodness_fins hd hN c e h1 h2 h3
    exact ⟨_, h4⟩
  have hx0 : (o.optCoeffs = true → o.optExpons = true → P.x0.length = Sh.nb + Sh.nb) ∧
      (o.optCoeffs = true → o.optExpons = false → P.x0.length = Sh.nb) ∧
      (o.optCoeffs = false → o.optExpons = true → P.x0.length = Sh.nb) ∧
      ¬ (o.optCoeffs = false ∧ o.optExpons = false) := by
    unfold SFit.problem SFit.setup at hP
    cases h1 : o.optCoeffs <;> cases h2 : o.optExpons <;> rw [h1, h2] at hP <;>
      simp [raise] at hP <;> subst hP <;> simp [hc, he]
  have hshown : ∀ x : List ℝ, S.shown (fins c0) (fins e0) o (fins x) =
      if o.optCoeffs && o.optExpons then S.goodness (fins (x.take Sh.nb)) (fins (x.drop Sh.nb))
      else if o.optCoeffs then S.goodness (fins x) (fins e0) else S.goodness (fins c0) (fins x) := by
    intro x
    unfold SFit.shown
    simp [fins, hc, List.map_take, List.map_drop]
  have hok : ∀ x ∈ (minimize P).1, ∃ p, S.shown (fins c0) (fins e0) o x = .ok p := by
    rw [hxs]
    intro y hy
    obtain ⟨x, hx, rfl⟩ := List.mem_map.mp hy
    rw [hshown]
    have hl := hlen x hx
    cases h1 : o.optCoeffs <;> cases h2 : o.optExpons
    · exact absurd ⟨h1, h2⟩ hx0.2.2.2
    · have := hx0.2.2.1 h1 h2
      exact good c0 x hc (by omega) fun hn => by simpa [h1] using hpos hn h2 x hx
    · have := hx0.2.1 h1 h2
      exact good x e0 (by omega) he he0
    · have := hx0.1 h1 h2
      exact good _ _ (by simp; omega) (by simp; omega) fun hn => by simpa [h1] using hpos hn h2 x hx
  obtain ⟨rows, q1, q2, q3⟩ := callbacks_ok (S := S) (c0 := fins c0) (e0 := fins e0) (o := o) (minimize P).1
    (if S.method = .slsqp then [.rule, .heading, .rule] else []) hok
  have hhead : (if (true && S.method == SMethod.slsqp) = true then [Line.rule, .heading, .rule] else []) =
      if S.method = .slsqp then [Line.rule, .heading, .rule] else [] := by
    cases S.method <;> rfl
  have hrule : (if (S.method == SMethod.slsqp) = true then [Line.rule] else []) =
      if S.method = .slsqp then [Line.rule] else [] := by
    cases S.method <;> rfl
  refine ⟨?_, ?_⟩
  · unfold SFit.runD SFit.run
    rw [hP]
    simp only [if_true]
    rw [hhead, q1]
    simp only
    cases (minimize P).2 with
    | error e => rfl
    | ok r =>
      simp only
      split <;> rename_i hg <;> rw [hg]
  · intro r hr
    refine ⟨rows, ?_, by rw [q2, hxs]; simp, ?_⟩
    · unfold SFit.run at hr
      unfold SFit.runD
      rw [hP] at hr ⊢
      simp only [if_true] at hr ⊢
      rw [hhead, q1]
      simp only
      cases hm : (minimize P).2 with
      | error e => rw [hm] at hr; simp at hr
      | ok res =>
        rw [hm] at hr
        simp only at hr ⊢
        split at hr
        · simp at hr
        · rename_i p hg
          rw [hg]
          simp only [Except.ok.injEq] at hr
          subst hr
          simp only [hrule, List.append_assoc]
    · intro i x hx
      obtain ⟨p, h1, h2⟩ := q3 i (fins x) (by rw [hxs, List.getElem?_map, hx]; rfl)
      rw [hshown] at h2
      refine ⟨p, h1, ?_, ?_, ?_⟩ <;> intro a b <;> simpa [a, b] using h2

/-- **C137.**  The lengths matter: with one basis function, two coefficients and no exponents, `ScipyFit.run` returns
without `disp` and raises `ValueError` with `disp`, because the callback cuts the vector at the number of given
coefficients and the end of `run` at the number of basis functions. -/
theorem C137_scipy_lengths : ∃ (S : SFit) (minimize : SProblem → List (List XR) × Py SRes) (o : SOpts) (r : SResult),
    S.model.nbasis = 1 ∧
    S.runD minimize (fins [1, 1]) [] o false = ([], .ok r) ∧ r.coeffs = fins [1] ∧ r.exps = fins [1] ∧
    (S.runD minimize (fins [1, 1]) [] o true).2 = .error .valueError := by
  have hnb : (demoSFit .sq).model.nbasis = 1 := (demoSFit_data .sq).model.nbasis
  obtain ⟨p, h1⟩ : ∃ p, (demoSFit .sq).goodness (fins [1]) (fins [1]) = .ok p := by
    obtain ⟨M, kl, h1, -⟩ := goodness_fins (demoSFit_data .sq) (by norm_num) [1] [1] rfl rfl (by simp)
    exact ⟨_, h1⟩
  have e1 : sliceTo (fins [1, 1]) 1 = fins [1] := rfl
  have e2 : sliceFrom (fins [1, 1]) 1 = fins [1] := rfl
  refine ⟨demoSFit .sq, fun P => ([P.x0], .ok ⟨P.x0, XR.fin 0, [], true, ""⟩), ⟨true, true, 100, XR.fin 0, true⟩,
    ⟨fins [1], fins [1], XR.fin 0, true, "", [], p⟩, hnb, ?_, rfl, rfl, ?_⟩
  rotate_left 1
  · have hsh : (demoSFit .sq).shown (fins [1, 1]) [] ⟨true, true, 100, XR.fin 0, true⟩ (fins [1, 1]) =
        .error .valueError := by
      unfold SFit.shown Fit.goodness
      have : (demoSFit .sq).model.evaluate ((fins [1, 1]).take (fins [1, 1]).length)
          ((fins [1, 1]).drop (fins [1, 1]).length) false = .error .valueError := rfl
      simp only [Bool.and_self, if_true]
      rw [this]
    unfold SFit.runD
    have hp : (demoSFit .sq).problem (fins [1, 1]) [] ⟨true, true, 100, XR.fin 0, true⟩ = .ok _ := rfl
    rw [hp]
    simp only [if_true, List.append_nil, SFit.callbacks]
    rw [hsh]
  · rw [C137_scipy_quiet]
    unfold SFit.run
    have hp : (demoSFit .sq).problem (fins [1, 1]) [] ⟨true, true, 100, XR.fin 0, true⟩ = .ok _ := rfl
    rw [hp]
    simp only [Bool.and_self, if_true, hnb, List.append_nil]
    rw [e1, e2, h1]

/-- `C137_scipy` for an optimiser that reports two iterates and returns the second: five lines at the end, three at the
start, a rule and two rows. -/
example : ∃ r, ((demoSFit .sq).runD (fun P => ([P.x0, fins [2, 3]], .ok ⟨fins [2, 3], XR.fin 0, [], true, ""⟩))
      (fins [1]) (fins [1]) ⟨true, true, 100, XR.fin 0, true⟩ true).2 = .ok r ∧ r.coeffs = fins [2] ∧
    ((demoSFit .sq).runD (fun P => ([P.x0, fins [2, 3]], .ok ⟨fins [2, 3], XR.fin 0, [], true, ""⟩))
      (fins [1]) (fins [1]) ⟨true, true, 100, XR.fin 0, true⟩ true).1.length = 11 := by
  have hnb : (demoSFit .sq).model.nbasis = 1 := (demoSFit_data .sq).model.nbasis
  obtain ⟨h1, h2⟩ := C137_scipy (demoSFit_data .sq) (by norm_num)
    (fun P => ([P.x0, fins [2, 3]], .ok ⟨fins [2, 3], XR.fin 0, [], true, ""⟩)) [1] [1] rfl rfl (by simp)
    ⟨true, true, 100, XR.fin 0, true⟩ _ rfl [[1, 1], [2, 3]] rfl (by simp [fins]) (by simp [atomShape])
  obtain ⟨M, kl, h3, -⟩ := goodness_fins (demoSFit_data .sq) (by norm_num) [2] [3] rfl rfl (by simp)
  have hr : ∃ r, (demoSFit .sq).run (fun _ => .ok ⟨fins [2, 3], XR.fin 0, [], true, ""⟩) (fins [1]) (fins [1])
      ⟨true, true, 100, XR.fin 0, true⟩ = .ok r ∧ r.coeffs = fins [2] := by
    have hp : (demoSFit .sq).problem (fins [1]) (fins [1]) ⟨true, true, 100, XR.fin 0, true⟩ = .ok _ := rfl
    unfold SFit.run
    rw [hp]
    simp only [Bool.and_self, if_true, hnb]
    have e1 : sliceTo (fins [2, 3]) 1 = fins [2] := rfl
    have e2 : sliceFrom (fins [2, 3]) 1 = fins [3] := rfl
    rw [e1, e2, h3]
    exact ⟨_, rfl, rfl⟩
  obtain ⟨r, hr, hc⟩ := hr
  obtain ⟨rows, h4, h5, -⟩ := h2 r hr
  refine ⟨r, h1.trans hr, hc, ?_⟩
  rw [h4]
  simp [h5, demoSFit]

end
end BFit
