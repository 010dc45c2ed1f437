import Verif.Lemmas.PrintText
import Verif.Props.Display

/-! C141: the text of the tables that `run(..., disp=True)` prints. -/

namespace BFit

open Real Classical Finset

noncomputable section

/-! ### Reading -/

/-- **C141.**  A text is the text of at most one number, at most one integer, and a line has at most one list of
fields. -/
theorem C141_one_reading :
    (∀ w v v', NumText w v → NumText w v' → v = v') ∧ (∀ w n n', IntText w n → IntText w n' → n = n') ∧
    (∀ w fs gs, Cells w fs → Cells w gs → fs = gs) :=
  ⟨fun _ _ _ h h' => h.unique h', fun _ _ _ h h' => h.unique h', fun _ _ _ h h' => h.unique h'⟩

/-- Texts of numbers, of an integer and of a line. -/
example : NumText (chars! "  -1.250000  ") (.fin (-1.25)) ∧ NumText (chars! " 1.5e-07 ") (.fin (1.5e-7)) ∧
    NumText (chars! " inf ") .pinf ∧ IntText (chars! "  -12 ") (-12) ∧
    Cells (chars! "| 1 |  2|") [chars! " 1 ", chars! "  2"] := by
  refine ⟨.dec ⟨chars! "  ", true, chars! "1", chars! "250000", chars! "  ", rfl, by decide +kernel, by decide +kernel,
    by decide, by decide, by decide, ?_⟩,
    .exp ⟨chars! " ", chars! "1.5", true, chars! "07", chars! " ", 1.5, rfl, by decide +kernel, by decide +kernel,
      ⟨[], false, chars! "1", chars! "5", [], rfl, by decide +kernel, by decide +kernel, by decide, by decide,
        by decide, ?_⟩, by decide +kernel, by decide, by decide, ?_⟩,
    .pinf (a := chars! " ") (b := chars! " ") (by decide +kernel) (by decide +kernel),
    ⟨chars! "  ", true, chars! "12", chars! " ", rfl, by decide +kernel, by decide +kernel, by decide, by decide, rfl⟩,
    rfl, by decide⟩
  · rw [show decDigits (chars! "1" ++ chars! "250000") = 1250000 by decide]
    norm_num
  · rw [show decDigits (chars! "1" ++ chars! "5") = 15 by decide]
    norm_num
  · rw [show decDigits (chars! "07") = 7 by decide]
    norm_num

/-- Two numbers shown by the same text, with absolute errors. -/
theorem ShowsAbs.near {w : Str} {v v' : XR} (h : ShowsAbs w v) (h' : ShowsAbs w v') :
    v = v' ∨ ∃ x y : ℝ, v = .fin x ∧ v' = .fin y ∧ |x - y| ≤ 1e-6 := by
  obtain ⟨u, h1, h2⟩ := h
  obtain ⟨u', g1, g2⟩ := h'
  have := h1.unique g1
  subst this
  rcases h2 with rfl | ⟨x, y, rfl, rfl, h2⟩
  · rcases g2 with rfl | ⟨x, y, rfl, rfl, g2⟩
    · exact Or.inl rfl
    · exact Or.inr ⟨x, y, rfl, rfl, g2.trans (by norm_num)⟩
  · rcases g2 with rfl | ⟨x', y', hx, rfl, g2⟩
    · exact Or.inr ⟨y, x, rfl, rfl, by rw [abs_sub_comm]; exact h2.trans (by norm_num)⟩
    · simp only [XR.fin.injEq] at hx
      subst hx
      refine Or.inr ⟨y, y', rfl, rfl, ?_⟩
      rw [abs_le] at h2 g2 ⊢
      constructor <;> linarith

/-- Two numbers shown by the same text, with relative errors. -/
theorem ShowsRel.near {w : Str} {v v' : XR} (h : ShowsRel w v) (h' : ShowsRel w v') :
    v = v' ∨ ∃ x y : ℝ, v = .fin x ∧ v' = .fin y ∧ |x - y| ≤ 5e-7 * (|x| + |y|) := by
  obtain ⟨u, h1, h2⟩ := h
  obtain ⟨u', g1, g2⟩ := h'
  have := h1.unique g1
  subst this
  rcases h2 with rfl | ⟨x, y, rfl, rfl, h2⟩
  · rcases g2 with rfl | ⟨x, y, rfl, rfl, g2⟩
    · exact Or.inl rfl
    · refine Or.inr ⟨x, y, rfl, rfl, ?_⟩
      have := abs_nonneg x
      linarith
  · rcases g2 with rfl | ⟨x', y', hx, rfl, g2⟩
    · refine Or.inr ⟨y, x, rfl, rfl, ?_⟩
      rw [abs_sub_comm]
      have := abs_nonneg x
      linarith
    · simp only [XR.fin.injEq] at hx
      subst hx
      refine Or.inr ⟨y, y', rfl, rfl, ?_⟩
      have e : y - y' = (x - y') - (x - y) := by ring
      rw [e]
      refine (abs_sub _ _).trans ?_
      linarith

/-! ### Rows -/

theorem fpiRow_shows (n : ℕ) (p : Perf) (dc de dd : XR) : FpiRowShows (fpiRowText n p dc de dd) n p dc de dd := by
  have i0 := fmtD_int n 10
  have a1 := (fmtF_num p.integral).center 12
  have a2 := (fmtE_num p.l1).center 15
  have a3 := (fmtF_num p.linf).center 15
  have a4 := (fmtE_num p.ls).center 15
  have a5 := (fmtE_num p.kl).center 16
  have a6 := (fmtE_num dc).center 15
  have a7 := (fmtE_num de).center 15
  have a8 := (fmtE_num dd).center 15
  refine ⟨_, _, _, _, _, _, _, _, _, cells_bars ?_, i0, a1, a2, a3, a4, a5, a6, a7, a8⟩
  simp only [List.forall_mem_cons]
  exact ⟨i0.no_bar, a1.no_bar, a2.no_bar, a3.no_bar, a4.no_bar, a5.no_bar, a6.no_bar, a7.no_bar, a8.no_bar, by simp⟩

theorem slsqpRow_shows (p : Perf) : SlsqpRowShows (slsqpRowText p) p := by
  have a1 := (fmtF_num p.integral).center 12
  have a2 := (fmtE_num p.l1).center 15
  have a3 := (fmtF_num p.linf).center 15
  have a4 := (fmtE_num p.ls).center 15
  have a5 := (fmtE_num p.kl).center 16
  refine ⟨_, _, _, _, _, cells_bars ?_, a1, a2, a3, a4, a5⟩
  simp only [List.forall_mem_cons]
  exact ⟨a1.no_bar, a2.no_bar, a3.no_bar, a4.no_bar, a5.no_bar, by simp⟩

theorem trustRow_shows (p : Perf) : TrustRowShows (trustRowText p) p :=
  ⟨_, _, _, _, _, rfl, (fmtF_num p.integral).flush 10, (fmtE_num p.l1).flush 10, (fmtF_num p.linf).flush 10,
    (fmtE_num p.ls).flush 10, (fmtE_num p.kl).flush 10⟩

theorem greedyRow_shows (n : ℤ) (s q : ℕ) (p : Perf) (dd : XR) :
    GreedyRowShows (greedyRowText n s q p dd) n s q p dd := by
  have i0 := fmtD_int n 15
  have i1 := fmtD_int s 13
  have i2 := fmtD_int q 13
  have a3 := (fmtF_num p.integral).center 15
  have a4 := (fmtE_num p.l1).center 15
  have a5 := (fmtE_num p.linf).center 16
  have a6 := (fmtE_num p.ls).center 15
  have a7 := (fmtE_num p.kl).center 16
  have a8 := (fmtE_num dd).center 16
  refine ⟨_, _, _, _, _, _, _, _, _, cells_bars ?_, i0, i1, i2, a3, a4, a5, a6, a7, a8⟩
  simp only [List.forall_mem_cons]
  exact ⟨i0.no_bar, i1.no_bar, i2.no_bar, a3.no_bar, a4.no_bar, a5.no_bar, a6.no_bar, a7.no_bar, a8.no_bar, by simp⟩

theorem named_center (k : ℕ) (s : Str) : Named (center k s) s :=
  ⟨_, _, blank_replicate _, blank_replicate _, rfl⟩

/-- The headings of the three tables name the columns. -/
theorem headings_show :
    HeadingShows fpiHeading [chars! "Iteration", chars! "Integration", chars! "L1", chars! "L Infinity",
      chars! "Least-squares", chars! "Kullback-Leibler", chars! "Change Coeffs", chars! "Change Exps",
      chars! "Change Objective"] ∧
    HeadingShows slsqpHeading [chars! "Integration", chars! "L1", chars! "L Infinity", chars! "Least-squares",
      chars! "Kullback-Leibler"] ∧
    HeadingShows greedyHeading [chars! "# of Functions", chars! "# of S-type", chars! "# of P-type",
      chars! "Integration", chars! "L1", chars! "L Infinity", chars! "Least-squares", chars! "Kullback-Leibler",
      chars! "Change Objective"] := by
  refine ⟨⟨_, cells_bars (by decide +kernel), ?_⟩, ⟨_, cells_bars (by decide +kernel), ?_⟩,
    ⟨_, cells_bars (by decide +kernel), ?_⟩⟩ <;>
  exact List.Forall₂.cons (named_center _ _) (by repeat (first | exact .nil | refine .cons (named_center _ _) ?_))

/-! ### Runs -/

/-- **C141.**  The texts printed by a successful `KLDivergenceFPI.run`: a rule, a heading that names nine columns, a
rule, and for each update a line with nine fields between bars.  They are, in the order of the heading, the number of
the update, the five measures in `performance`, the largest changes of a coefficient and of an exponent and the
change of the divergence of `C137_fpi`; `Integration` and `L Infinity` with an absolute error of at most `5e-7`, the
others with a relative error of at most `5e-7`. -/
theorem C141_fpi (F : FPI) (c0 e0 : ND XR) (o : FPIOpts) (r : FPIResult) (h : F.run (.arr c0) (.arr e0) o = .ok r) :
    ∃ texts : List (Option Str), (F.runD (.arr c0) (.arr e0) o true).1.map (Line.text .fpi) = texts ∧
      (∃ rule heading, texts[0]? = some (some rule) ∧ texts[1]? = some (some heading) ∧ texts[2]? = some (some rule) ∧
        texts[r.performance.length + 3]? = some (some rule) ∧ rule ≠ [] ∧ (∀ c ∈ rule, c = '-') ∧
        HeadingShows heading [chars! "Iteration", chars! "Integration", chars! "L1", chars! "L Infinity",
          chars! "Least-squares", chars! "Kullback-Leibler", chars! "Change Coeffs", chars! "Change Exps",
          chars! "Change Objective"]) ∧
      (∃ tr : ℕ → List XR × List XR, RunTrace F c0 e0 o r r.performance.length tr ∧
        ∀ (i : ℕ) p, r.performance[i]? = some p → ∃ w dc de dd, texts[i + 3]? = some (some w) ∧
          FpiRowShows w (i + 1) p dc de dd ∧
          IsLargestChange (tr (i + 1)).1 (tr i).1 dc ∧ IsLargestChange (tr (i + 1)).2 (tr i).2 de ∧
          (i = 0 → dd = XR.pinf) ∧
          ∀ j q, i = j + 1 → r.performance[j]? = some q → dd = (p.kl - q.kl).abs) ∧
      texts[r.performance.length + 4]? =
        some (some (if r.success then chars! "Successful?: True" else chars! "Successful?: False")) := by
  obtain ⟨tr, rows, g1, g2, g3⟩ := C137_fpi F c0 e0 o r h
  have hl : rows.length = r.performance.length := g1.len.symm
  refine ⟨_, rfl, ⟨fpiRule, fpiHeading, ?_, ?_, ?_, ?_, ?_, ?_, headings_show.1⟩, ⟨tr, ?_, ?_⟩, ?_⟩
  · rw [g2]; rfl
  · rw [g2]; rfl
  · rw [g2]; rfl
  · rw [g2, List.getElem?_map, List.getElem?_append_right (by simp; omega)]
    simp [hl, Line.text]
  · exact List.cons_ne_nil _ _
  · intro c hc
    exact List.eq_of_mem_replicate hc
  · rw [← hl]; exact g1
  · intro i p hp
    obtain ⟨dc, de, dd, a1, a2⟩ := g3 i p hp
    refine ⟨_, dc, de, dd, ?_, by simpa using fpiRow_shows (i + 1) p dc de dd, a2⟩
    have hi : i < rows.length := (List.getElem?_eq_some_iff.mp a1).1
    rw [g2, List.getElem?_map, List.getElem?_append_left (by simp; omega), List.getElem?_append_right (by simp)]
    simp [a1, Line.text]
  · rw [g2, List.getElem?_map, List.getElem?_append_right (by simp; omega)]
    simp only [List.length_append, List.length_cons, List.length_nil, hl]
    rw [show r.performance.length + 4 - (0 + 1 + 1 + 1 + r.performance.length) = 1 by omega]
    cases r.success <;> rfl

/-- **C141.**  The text printed by `ScipyFit.run` for each iterate that the optimiser reports shows the five measures
of the parameters in that iterate; with slsqp in the five columns of the heading, with trust-constr after their
names. -/
theorem C141_scipy {S : SFit} {norm : Bool} {Sh : Shape} {N : ℕ} {W f : ℕ → ℝ}
    (hd : FitData S.toFit norm Sh N W f) (hN : 0 < N) (minimize : SProblem → List (List XR) × Py SRes)
    (c0 e0 : List ℝ) (hc : c0.length = Sh.nb) (he : e0.length = Sh.nb) (he0 : norm = true → ∀ a ∈ e0, 0 ≤ a) (o : SOpts)
    (P : SProblem) (hP : S.problem (fins c0) (fins e0) o = .ok P) (xs : List (List ℝ))
    (hxs : (minimize P).1 = xs.map fins) (hlen : ∀ x ∈ xs, x.length = P.x0.length)
    (hpos : norm = true → o.optExpons = true → ∀ x ∈ xs, ∀ a ∈ (if o.optCoeffs then x.drop Sh.nb else x), 0 ≤ a)
    (r : SResult) (hr : S.run (fun P => (minimize P).2) (fins c0) (fins e0) o = .ok r) :
    ∀ (i : ℕ) x, xs[i]? = some x → ∃ (p : Perf) (w : Str),
      (o.optCoeffs = true → o.optExpons = true →
        S.goodness (fins (x.take Sh.nb)) (fins (x.drop Sh.nb)) = .ok p) ∧
      (o.optCoeffs = true → o.optExpons = false → S.goodness (fins x) (fins e0) = .ok p) ∧
      (o.optCoeffs = false → o.optExpons = true → S.goodness (fins c0) (fins x) = .ok p) ∧
      (S.method = .slsqp →
        SlsqpRowShows w p ∧
        ((S.runD minimize (fins c0) (fins e0) o true).1.map (Line.text .slsqp))[i + 3]? = some (some w) ∧
        ∃ heading, ((S.runD minimize (fins c0) (fins e0) o true).1.map (Line.text .slsqp))[1]? = some (some heading) ∧
          HeadingShows heading [chars! "Integration", chars! "L1", chars! "L Infinity", chars! "Least-squares",
            chars! "Kullback-Leibler"]) ∧
      (S.method ≠ .slsqp →
        TrustRowShows w p ∧
        ((S.runD minimize (fins c0) (fins e0) o true).1.map (Line.text .trust))[i]? = some (some w)) := by
  obtain ⟨-, h⟩ := C137_scipy hd hN minimize c0 e0 hc he he0 o P hP xs hxs hlen hpos
  obtain ⟨rows, g1, g2, g3⟩ := h r hr
  intro i x hx
  obtain ⟨p, a1, a2, a3, a4⟩ := g3 i x hx
  have hi : i < rows.length := (List.getElem?_eq_some_iff.mp a1).1
  refine ⟨p, if S.method = .slsqp then slsqpRowText p else trustRowText p, a2, a3, a4, fun hm => ?_, fun hm => ?_⟩
  · rw [if_pos hm] at g1 ⊢
    refine ⟨slsqpRow_shows p, ?_, slsqpHeading, ?_, headings_show.2.1⟩
    · rw [g1, List.getElem?_map, List.append_assoc, List.getElem?_append_left (by simp; omega),
        List.getElem?_append_right (by simp)]
      simp [a1, Line.text]
    · rw [g1]; rfl
  · rw [if_neg hm] at g1 ⊢
    refine ⟨trustRow_shows p, ?_⟩
    rw [g1, List.getElem?_map, List.nil_append, List.append_assoc, List.getElem?_append_left hi]
    simp [a1, Line.text]

/-- **C141.**  The texts printed by a successful run of a greedy class: a rule, a heading that names nine columns, a
rule, a line for the start, and a line for each round, which show with nine fields between bars the numbers of
`C137_greedy`. -/
theorem C141_greedy (E : GEnv) (hE : E.SizeChecked) (hnan : ∀ ns np p v, E.obj ns np p = .ok v → v ≠ XR.nan)
    (ob : GObj) (hms : ob.modelS = ob.numS) (hmp : ob.modelP = ob.numP) (factor : PyObj) (o : GOpts) (r : GResult)
    (ob' : GObj) (h : E.run ob factor o = .ok (r, ob')) :
    ∃ (hist : List Accepted) (rounds : ℕ) (k : ℕ → ℕ) (texts : List (Option Str)),
      (E.runD ob factor o true).1.map (Line.text .greedy) = texts ∧
      hist.map Accepted.params = r.parametersIteration ∧ r.performance = ob.errArr ++ hist.map Accepted.err ∧
      (∃ rule heading, texts[0]? = some (some rule) ∧ texts[1]? = some (some heading) ∧ texts[2]? = some (some rule) ∧
        texts[rounds + 4]? = some (some rule) ∧ rule ≠ [] ∧ (∀ c ∈ rule, c = '-') ∧
        HeadingShows heading [chars! "# of Functions", chars! "# of S-type", chars! "# of P-type",
          chars! "Integration", chars! "L1", chars! "L Infinity", chars! "Least-squares", chars! "Kullback-Leibler",
          chars! "Change Objective"]) ∧
      (∃ first w, hist[0]? = some first ∧ texts[3]? = some (some w) ∧
        GreedyRowShows w 1 ob.numS ob.numP first.err XR.nan) ∧
      k 0 = 0 ∧ k rounds + 1 = hist.length ∧ (∀ i < rounds, k (i + 1) = k i ∨ k (i + 1) = k i + 1) ∧
      (∀ i < rounds, ∃ a d w, hist[k (i + 1)]? = some a ∧ texts[i + 4]? = some (some w) ∧
        GreedyRowShows w ((a.ns + a.np : ℤ) + 1 - (ob.numS + ob.numP)) a.ns a.np a.err d ∧
        (k (i + 1) = 0 → d = (a.value - XR.pinf).abs) ∧
        ∀ j b, k (i + 1) = j + 1 → hist[j]? = some b → d = (a.value - b.value).abs) ∧
      texts[rounds + 5]? =
        some (some (if r.success then chars! "Successful?: True" else chars! "Successful?: False")) ∧
      texts[rounds + 6]? = some (some (chars! "Number of s-type: " ++ Nat.toDigits 10 r.numS)) ∧
      texts[rounds + 7]? = some (some (chars! "Number of p-type: " ++ Nat.toDigits 10 r.numP)) := by
  obtain ⟨hist, first, rows, k, g1, g2, -, g4, -, -, g7, -, -, g10, g11, g12, g13⟩ :=
    C137_greedy E hE hnan ob hms hmp factor o r ob' h
  have hmid : ∀ i l, rows[i]? = some l → ((E.runD ob factor o true).1.map (Line.text .greedy))[i + 4]? =
      some (l.text .greedy) := by
    intro i l hl
    have hi : i < rows.length := (List.getElem?_eq_some_iff.mp hl).1
    rw [g7, List.getElem?_map, List.getElem?_append_left (by simp; omega), List.getElem?_append_right (by simp)]
    simp [hl]
  have hend : ∀ j, ((E.runD ob factor o true).1.map (Line.text .greedy))[rows.length + (4 + j)]? =
      ([.rule, .success r.success, .numS r.numS, .numP r.numP, .exitInfo r.exitInformation, .objective r.fun_,
        .coeffs r.coeffs, .exps r.exps].map (Line.text .greedy))[j]? := by
    intro j
    rw [g7, List.getElem?_map, List.getElem?_append_right (by simp; omega), List.getElem?_map]
    congr 2
    simp
    omega
  refine ⟨hist, rows.length, k, _, rfl, g1, g2, ⟨greedyRule, greedyHeading, ?_, ?_, ?_, hend 0, ?_, ?_, headings_show.2.2⟩,
    ⟨first, _, g4, ?_, by simpa using greedyRow_shows 1 ob.numS ob.numP first.err XR.nan⟩, g10, g11, g12, ?_, ?_, hend 2, hend 3⟩
  · rw [g7]; rfl
  · rw [g7]; rfl
  · rw [g7]; rfl
  · exact List.cons_ne_nil _ _
  · intro c hc
    exact List.eq_of_mem_replicate hc
  · rw [g7]; rfl
  · intro i hi
    obtain ⟨a, d, b1, b2, b3, b4⟩ := g13 i _ (List.getElem?_eq_getElem hi)
    refine ⟨a, d, _, b1, (hmid i _ (List.getElem?_eq_getElem hi)).trans ?_, greedyRow_shows _ _ _ _ _, b3, b4⟩
    rw [b2]
    rfl
  · refine (hend 1).trans ?_
    cases r.success <;> rfl

/-- **C141.**  Two rows of `KLDivergenceFPI` with the same text have the same number, are infinite or `nan` in the
same columns, and have finite values that differ by at most `1e-6` in `Integration` and `L Infinity`, and by at most
`5e-7` of the sum of their sizes elsewhere. -/
theorem C141_same_text {w : Str} {n n' : ℤ} {p p' : Perf} {dc de dd dc' de' dd' : XR}
    (h : FpiRowShows w n p dc de dd) (h' : FpiRowShows w n' p' dc' de' dd') :
    n = n' ∧
    (∀ v ∈ [(p.integral, p'.integral), (p.linf, p'.linf)],
      v.1 = v.2 ∨ ∃ x y : ℝ, v = (.fin x, .fin y) ∧ |x - y| ≤ 1e-6) ∧
    (∀ v ∈ [(p.l1, p'.l1), (p.ls, p'.ls), (p.kl, p'.kl), (dc, dc'), (de, de'), (dd, dd')],
      v.1 = v.2 ∨ ∃ x y : ℝ, v = (.fin x, .fin y) ∧ |x - y| ≤ 5e-7 * (|x| + |y|)) := by
  obtain ⟨f0, f1, f2, f3, f4, f5, f6, f7, f8, c, h0, h1, h2, h3, h4, h5, h6, h7, h8⟩ := h
  obtain ⟨g0, g1, g2, g3, g4, g5, g6, g7, g8, c', k0, k1, k2, k3, k4, k5, k6, k7, k8⟩ := h'
  have e := c.unique c'
  simp only [List.cons.injEq, and_true] at e
  obtain ⟨rfl, rfl, rfl, rfl, rfl, rfl, rfl, rfl, rfl⟩ := e
  have ha : ∀ {f : Str} {u u' : XR}, ShowsAbs f u → ShowsAbs f u' →
      u = u' ∨ ∃ x y : ℝ, (u, u') = (.fin x, .fin y) ∧ |x - y| ≤ 1e-6 := by
    intro f u u' h h'
    rcases h.near h' with h | ⟨x, y, rfl, rfl, h⟩
    · exact Or.inl h
    · exact Or.inr ⟨x, y, rfl, h⟩
  have hr : ∀ {f : Str} {u u' : XR}, ShowsRel f u → ShowsRel f u' →
      u = u' ∨ ∃ x y : ℝ, (u, u') = (.fin x, .fin y) ∧ |x - y| ≤ 5e-7 * (|x| + |y|) := by
    intro f u u' h h'
    rcases h.near h' with h | ⟨x, y, rfl, rfl, h⟩
    · exact Or.inl h
    · exact Or.inr ⟨x, y, rfl, h⟩
  refine ⟨h0.unique k0, ?_, ?_⟩
  · simp only [List.forall_mem_cons]
    exact ⟨ha h1 k1, ha h3 k3, by simp⟩
  · simp only [List.forall_mem_cons]
    exact ⟨hr h2 k2, hr h4 k4, hr h5 k5, hr h6 k6, hr h7 k7, hr h8 k8, by simp⟩

/-! ### Widths -/

/-- **C141.**  For values in the usual range the bars stand below each other: the fields of all rows of a table have
the same widths.  The tables of `ScipyFit` and of the greedy classes are as wide as their headings and rules (79 and
144 places).  In the table of `KLDivergenceFPI` the last field of the heading is one place wider than that of the
rows, so that the rows (138 places) end before the heading and the rules (139 places). -/
theorem C141_widths :
    (∀ (n : ℕ) (p : Perf) (dc de dd : XR), n < 10 ^ 10 → Between (-9999) 99999 p.integral →
      Between (-9999999) 99999999 p.linf → (∀ v ∈ [p.l1, p.ls, p.kl, dc, de, dd], DoubleRange v) →
      ∃ w, Line.text .fpi (.fpiRow n p dc de dd) = some w ∧ Widths w [10, 12, 15, 15, 15, 16, 15, 15, 15] ∧
        w.length = 138) ∧
    (∃ w, Line.text .fpi .heading = some w ∧ Widths w [10, 12, 15, 15, 15, 16, 15, 15, 16] ∧ w.length = 139) ∧
    (∃ w, Line.text .fpi .rule = some w ∧ w.length = 139) ∧
    (∀ p : Perf, Between (-9999) 99999 p.integral → Between (-9999999) 99999999 p.linf →
      (∀ v ∈ [p.l1, p.ls, p.kl], DoubleRange v) →
      ∃ w, Line.text .slsqp (.scipyRow p) = some w ∧ Widths w [12, 15, 15, 15, 16] ∧ w.length = 79) ∧
    (∃ w, Line.text .slsqp .heading = some w ∧ Widths w [12, 15, 15, 15, 16] ∧ w.length = 79) ∧
    (∃ w, Line.text .slsqp .rule = some w ∧ w.length = 79) ∧
    (∀ (n : ℤ) (s q : ℕ) (p : Perf) (dd : XR), 0 ≤ n → n < 10 ^ 15 → s < 10 ^ 13 → q < 10 ^ 13 →
      Between (-9999999) 99999999 p.integral → (∀ v ∈ [p.l1, p.linf, p.ls, p.kl, dd], DoubleRange v) →
      ∃ w, Line.text .greedy (.greedyRow n s q p dd) = some w ∧ Widths w [15, 13, 13, 15, 15, 16, 15, 16, 16] ∧
        w.length = 144) ∧
    (∃ w, Line.text .greedy .heading = some w ∧ Widths w [15, 13, 13, 15, 15, 16, 15, 16, 16] ∧ w.length = 144) ∧
    (∃ w, Line.text .greedy .rule = some w ∧ w.length = 144) := by
  have hF12 : ∀ {v : XR}, Between (-9999) 99999 v → (center 12 (fmtF v)).length = 12 := fun h =>
    center_length (fmtF_length (k := 5) (M := 99999) (M' := 9999) (by norm_num) (by norm_num) (by norm_num)
      (by push_cast; exact h))
  have hF15 : ∀ {v : XR}, Between (-9999999) 99999999 v → (center 15 (fmtF v)).length = 15 := fun h =>
    center_length (fmtF_length (k := 8) (M := 99999999) (M' := 9999999) (by norm_num) (by norm_num) (by norm_num)
      (by push_cast; exact h))
  have nD : ∀ (n : ℤ) (k : ℕ), '|' ∉ center k (fmtD n) := fun n k => (fmtD_int n k).no_bar
  have nF : ∀ (v : XR) (k : ℕ), '|' ∉ center k (fmtF v) := fun v k => ((fmtF_num v).center k).no_bar
  have nE : ∀ (v : XR) (k : ℕ), '|' ∉ center k (fmtE v) := fun v k => ((fmtE_num v).center k).no_bar
  have hD : ∀ (n : ℤ) (k : ℕ), 0 < k → 0 ≤ n → n < 10 ^ k → (center k (fmtD n)).length = k := fun n k hk h0 h =>
    center_length (fmtD_length hk h0 h)
  refine ⟨?_, ?_, ⟨_, rfl, List.length_replicate⟩, ?_, ?_, ⟨_, rfl, List.length_replicate⟩, ?_, ?_,
    ⟨_, rfl, List.length_replicate⟩⟩
  · intro n p dc de dd hn h1 h2 h3
    simp only [List.forall_mem_cons] at h3
    obtain ⟨b1, b2, b3, b4, b5, b6, -⟩ := h3
    have hw : Widths (fpiRowText n p dc de dd) [10, 12, 15, 15, 15, 16, 15, 15, 15] := by
      refine ⟨_, cells_bars ?_, ?_⟩
      · simp only [List.forall_mem_cons]
        exact ⟨nD _ _, nF _ _, nE _ _, nF _ _, nE _ _, nE _ _, nE _ _, nE _ _, nE _ _, by simp⟩
      · simp only [List.map_cons, List.map_nil]
        rw [hD n 10 (by norm_num) (by positivity) (by exact_mod_cast hn), hF12 h1, hF15 h2,
          centerE_length b1 (by norm_num), centerE_length b2 (by norm_num), centerE_length b3 (by norm_num),
          centerE_length b4 (by norm_num), centerE_length b5 (by norm_num), centerE_length b6 (by norm_num)]
    exact ⟨_, rfl, hw, by rw [widths_length hw]; rfl⟩
  · have hw : Widths fpiHeading [10, 12, 15, 15, 15, 16, 15, 15, 16] := ⟨_, cells_bars (by decide +kernel), rfl⟩
    exact ⟨_, rfl, hw, by rw [widths_length hw]; rfl⟩
  · intro p h1 h2 h3
    simp only [List.forall_mem_cons] at h3
    obtain ⟨b1, b2, b3, -⟩ := h3
    have hw : Widths (slsqpRowText p) [12, 15, 15, 15, 16] := by
      refine ⟨_, cells_bars ?_, ?_⟩
      · simp only [List.forall_mem_cons]
        exact ⟨nF _ _, nE _ _, nF _ _, nE _ _, nE _ _, by simp⟩
      · simp only [List.map_cons, List.map_nil]
        rw [hF12 h1, hF15 h2, centerE_length b1 (by norm_num), centerE_length b2 (by norm_num),
          centerE_length b3 (by norm_num)]
    exact ⟨_, rfl, hw, by rw [widths_length hw]; rfl⟩
  · have hw : Widths slsqpHeading [12, 15, 15, 15, 16] := ⟨_, cells_bars (by decide +kernel), rfl⟩
    exact ⟨_, rfl, hw, by rw [widths_length hw]; rfl⟩
  · intro n s q p dd h0 hn hs hq h1 h3
    simp only [List.forall_mem_cons] at h3
    obtain ⟨b1, b2, b3, b4, b5, -⟩ := h3
    have hw : Widths (greedyRowText n s q p dd) [15, 13, 13, 15, 15, 16, 15, 16, 16] := by
      refine ⟨_, cells_bars ?_, ?_⟩
      · simp only [List.forall_mem_cons]
        exact ⟨nD _ _, nD _ _, nD _ _, nF _ _, nE _ _, nE _ _, nE _ _, nE _ _, nE _ _, by simp⟩
      · simp only [List.map_cons, List.map_nil]
        rw [hD n 15 (by norm_num) h0 hn, hD s 13 (by norm_num) (by positivity) (by exact_mod_cast hs),
          hD q 13 (by norm_num) (by positivity) (by exact_mod_cast hq), hF15 h1,
          centerE_length b1 (by norm_num), centerE_length b2 (by norm_num), centerE_length b3 (by norm_num),
          centerE_length b4 (by norm_num), centerE_length b5 (by norm_num)]
    exact ⟨_, rfl, hw, by rw [widths_length hw]; rfl⟩
  · have hw : Widths greedyHeading [15, 13, 13, 15, 15, 16, 15, 16, 16] := ⟨_, cells_bars (by decide +kernel), rfl⟩
    exact ⟨_, rfl, hw, by rw [widths_length hw]; rfl⟩

/-! ### Examples -/

theorem roundHE_nat (n : ℕ) : roundHE n = n := by
  unfold roundHE
  rw [Nat.floor_natCast, if_pos (by norm_num)]

theorem roundHE_of {y : ℝ} (n : ℕ) (h : y = n) : roundHE y = n := by rw [h, roundHE_nat]

/-- Halves are rounded to even digits, and `-1234.5` is shown in both ways. -/
example : fmtF (.fin 5e-7) = chars! "0.000000" ∧ fmtF (.fin 15e-7) = chars! "0.000002" ∧
    fmtF (.fin (-1234.5)) = chars! "-1234.500000" ∧ fmtE (.fin (-1234.5)) = chars! "-1.234500e+03" ∧
    fmtE (.fin 9.9999999) = chars! "1.000000e+01" := by
  have f0 : ⌊(1 / 2 : ℝ)⌋₊ = 0 := by rw [Nat.floor_eq_iff (by norm_num)]; norm_num
  have f1 : ⌊(3 / 2 : ℝ)⌋₊ = 1 := by rw [Nat.floor_eq_iff (by norm_num)]; norm_num
  have r0 : roundHE (|(5e-7 : ℝ)| * 10 ^ 6) = 0 := by
    rw [show |(5e-7 : ℝ)| * 10 ^ 6 = 1 / 2 by rw [abs_of_pos (by norm_num)]; norm_num]
    unfold roundHE
    rw [f0]
    norm_num
  have r1 : roundHE (|(15e-7 : ℝ)| * 10 ^ 6) = 2 := by
    rw [show |(15e-7 : ℝ)| * 10 ^ 6 = 3 / 2 by rw [abs_of_pos (by norm_num)]; norm_num]
    unfold roundHE
    rw [f1]
    norm_num
  have a : |(-1234.5 : ℝ)| = 1234.5 := by rw [abs_of_neg (by norm_num)]; norm_num
  have a' : |(9.9999999 : ℝ)| = 9.9999999 := abs_of_pos (by norm_num)
  have l : Int.log 10 (1234.5 : ℝ) = 3 := by
    refine le_antisymm ?_ ?_
    · rw [← Int.lt_add_one_iff, ← Int.lt_zpow_iff_log_lt (by norm_num) (by norm_num)]
      norm_num
    · rw [← Int.zpow_le_iff_le_log (by norm_num) (by norm_num)]
      norm_num
  have l' : Int.log 10 (9.9999999 : ℝ) = 0 := by
    refine le_antisymm ?_ ?_
    · rw [← Int.lt_add_one_iff, ← Int.lt_zpow_iff_log_lt (by norm_num) (by norm_num)]
      norm_num
    · rw [← Int.zpow_le_iff_le_log (by norm_num) (by norm_num)]
      norm_num
  have r2 : roundHE (|(-1234.5 : ℝ)| * 10 ^ 6) = 1234500000 := roundHE_of _ (by rw [a]; norm_num)
  have r3 : roundHE (|(-1234.5 : ℝ)| * (10 : ℝ) ^ (6 - Int.log 10 |(-1234.5 : ℝ)|)) = 1234500 :=
    roundHE_of _ (by rw [a, l]; norm_num)
  have r4 : roundHE (|(9.9999999 : ℝ)| * (10 : ℝ) ^ (6 - Int.log 10 |(9.9999999 : ℝ)|)) = 10 ^ 7 := by
    have f : ⌊(9999999.9 : ℝ)⌋₊ = 9999999 := by rw [Nat.floor_eq_iff (by norm_num)]; norm_num
    rw [a', l', show (9.9999999 : ℝ) * (10 : ℝ) ^ ((6 : ℤ) - 0) = 9999999.9 by norm_num]
    unfold roundHE
    rw [f]
    norm_num
  unfold fmtF fmtE fmtSpecial fmtSign
  simp only [r0, r1, r2, r3, r4]
  refine ⟨?_, ?_, ?_, ?_, ?_⟩
  · rw [if_neg (by norm_num)]; decide
  · rw [if_neg (by norm_num)]; decide
  · rw [if_pos (by norm_num)]; decide
  · rw [if_neg (by norm_num), if_neg (by norm_num), if_pos (by norm_num), a, l]; decide
  · rw [if_neg (by norm_num), if_pos trivial, if_neg (by norm_num), a', l']; decide

/-- A row to which `C141_same_text` and `C141_widths` apply. -/
example : ∃ w, Line.text .fpi (.fpiRow 12 ⟨.fin 1, .fin 0, .fin (1 / 3), .fin 1e-9, .nan⟩ (.fin 2) (.fin 1e9) .pinf) = some w ∧
    FpiRowShows w 12 ⟨.fin 1, .fin 0, .fin (1 / 3), .fin 1e-9, .nan⟩ (.fin 2) (.fin 1e9) .pinf ∧ w.length = 138 := by
  have hr : ∀ x : ℝ, (x = 0 ∨ ((10 : ℝ) ^ (-9 : ℤ) ≤ |x| ∧ |x| ≤ (10 : ℝ) ^ (9 : ℤ))) → DoubleRange (.fin x) := by
    intro x hx r h
    simp only [XR.fin.injEq] at h
    rw [← h]
    rcases hx with hx | ⟨h1, h2⟩
    · exact Or.inl hx
    · exact Or.inr ⟨(zpow_le_zpow_right₀ (by norm_num) (by norm_num)).trans h1,
        h2.trans (zpow_le_zpow_right₀ (by norm_num) (by norm_num))⟩
  have hs : ∀ v : XR, (∀ r, v ≠ .fin r) → DoubleRange v := fun v h r hr => absurd hr (h r)
  obtain ⟨w, h1, -, h2⟩ := C141_widths.1 12 ⟨.fin 1, .fin 0, .fin (1 / 3), .fin 1e-9, .nan⟩ (.fin 2) (.fin 1e9) .pinf
    (by norm_num) (by
      intro r h
      simp only [XR.fin.injEq] at h
      rw [← h]
      norm_num) (by
      intro r h
      simp only [XR.fin.injEq] at h
      rw [← h]
      norm_num) (by
      simp only [List.forall_mem_cons]
      refine ⟨hr _ (Or.inl rfl), hr _ (Or.inr ?_), hs _ (by simp), hr _ (Or.inr ?_), hr _ (Or.inr ?_), hs _ (by simp),
        by simp⟩
      · rw [abs_of_pos (by norm_num)]
        norm_num
      · rw [abs_of_pos (by norm_num)]
        norm_num
      · rw [abs_of_pos (by norm_num)]
        norm_num)
  refine ⟨w, h1, ?_, h2⟩
  simp only [Line.text, Option.some.injEq] at h1
  rw [← h1]
  exact fpiRow_shows _ _ _ _ _

/-- A run to which `C141_fpi` applies. -/
example : ∃ (F : FPI) (r : FPIResult),
    F.run (.arr (ND.vec (fins [1]))) (.arr (ND.vec (fins [1]))) ⟨true, true, 5, XR.fin 0, XR.fin 0, XR.fin 0⟩ = .ok r ∧
    ∃ heading, ((F.runD (.arr (ND.vec (fins [1]))) (.arr (ND.vec (fins [1])))
      ⟨true, true, 5, XR.fin 0, XR.fin 0, XR.fin 0⟩ true).1.map (Line.text .fpi))[1]? = some (some heading) ∧
      Widths heading [10, 12, 15, 15, 15, 16, 15, 15, 16] := by
  obtain ⟨F, h1, h2⟩ := demo_isFPI 2 (by norm_num)
  obtain ⟨r, n, cs, es, h3, h4, h5, h6⟩ := C39_total h2 demo_W (by norm_num) demo_sees
    ⟨true, true, 5, XR.fin 0, XR.fin 0, XR.fin 0⟩ (.inl rfl) [1] [1] ⟨rfl, rfl, by simp, by simp⟩
  obtain ⟨texts, rfl, ⟨rule, heading, g0, g1, -⟩, -⟩ := C141_fpi F _ _ _ r h3
  refine ⟨F, r, h3, heading, g1, ?_⟩
  obtain ⟨w, a1, a2, -⟩ := C141_widths.2.1
  obtain ⟨tr, rows, -, b, -⟩ := C137_fpi F _ _ _ r h3
  rw [b] at g1
  have : Line.text .fpi .heading = some heading := by simpa using g1
  rw [a1] at this
  simp only [Option.some.injEq] at this
  rwa [← this]

/-- A run to which `C141_greedy` applies. -/
example : ∃ (E : GEnv) (o : GOpts) (r : GResult) (ob' : GObj) (w : Str) (p : Perf),
    E.run GObj.fresh (.float (XR.fin 2)) o = .ok (r, ob') ∧
    ((E.runD GObj.fresh (.float (XR.fin 2)) o true).1.map (Line.text .greedy))[3]? = some (some w) ∧
    GreedyRowShows w 1 1 0 p XR.nan := by
  have hrun := toy_one_round .pickOne 1 (1 / 2) 1e-8 2 (by norm_num) (by norm_num) (by norm_num)
      (.inl (by decide)) (.inl (by decide))
  obtain ⟨hist, rounds, k, texts, rfl, -, -, -, ⟨first, w, -, h1, h2⟩, -⟩ := C141_greedy _
    (toyEnv_sizeChecked .pickOne _) (toyEnv_not_nan .pickOne fun n => if n = 1 then 1 else 1 / 2) GObj.fresh rfl rfl
    _ _ _ _ hrun
  exact ⟨_, _, _, _, w, _, hrun, h1, h2⟩

/-- A run to which `C141_scipy` applies. -/
example : ∃ (p : Perf) (w : Str), (demoSFit .sq).goodness (fins [2]) (fins [3]) = .ok p ∧ SlsqpRowShows w p ∧
    (((demoSFit .sq).runD (fun P => ([P.x0, fins [2, 3]], .ok ⟨fins [2, 3], XR.fin 0, [], true, ""⟩))
      (fins [1]) (fins [1]) ⟨true, true, 100, XR.fin 0, true⟩ true).1.map (Line.text .slsqp))[4]? = some (some w) := by
  obtain ⟨M, kl, h3, -⟩ := goodness_fins (demoSFit_data .sq) (by norm_num) [2] [3] rfl rfl (by simp)
  have hr : ∃ r, (demoSFit .sq).run (fun _ => .ok ⟨fins [2, 3], XR.fin 0, [], true, ""⟩) (fins [1]) (fins [1])
      ⟨true, true, 100, XR.fin 0, true⟩ = .ok r := by
    have hp : (demoSFit .sq).problem (fins [1]) (fins [1]) ⟨true, true, 100, XR.fin 0, true⟩ = .ok _ := rfl
    unfold SFit.run
    rw [hp]
    simp only [Bool.and_self, if_true, show (demoSFit .sq).model.nbasis = 1 from (demoSFit_data .sq).model.nbasis]
    have e1 : sliceTo (fins [2, 3]) 1 = fins [2] := rfl
    have e2 : sliceFrom (fins [2, 3]) 1 = fins [3] := rfl
    rw [e1, e2, h3]
    exact ⟨_, rfl⟩
  obtain ⟨r, hr⟩ := hr
  obtain ⟨p, w, h, -, -, hs, -⟩ := C141_scipy (demoSFit_data .sq) (by norm_num)
    (fun P => ([P.x0, fins [2, 3]], .ok ⟨fins [2, 3], XR.fin 0, [], true, ""⟩)) [1] [1] rfl rfl (by simp)
    ⟨true, true, 100, XR.fin 0, true⟩ _ rfl [[1, 1], [2, 3]] rfl (by simp [fins]) (by simp [atomShape]) r hr 1 [2, 3] rfl
  exact ⟨p, w, h rfl rfl, (hs rfl).1, (hs rfl).2.1⟩

end
end BFit
