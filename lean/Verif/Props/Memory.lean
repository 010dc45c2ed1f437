import Verif.Model.Memory
import Verif.Props.FPIHistory
import Verif.Props.FPIRun
import Verif.Props.GreedyRedund
import Verif.Props.ScipyFit

/-! Which arrays a call changes, and which arrays its result shares with its arguments (C138). -/

namespace BFit
open Real Classical Finset
noncomputable section

/-! ### memory -/

theorem at_prefix {h h' : Mem} (hp : h <+: h') {r : ℕ} (hr : r < h.length) : h'.at r = h.at r := by
  obtain ⟨t, rfl⟩ := hp
  simp [Mem.at, List.getD, List.getElem?_append_left hr]

theorem at_last (h : Mem) (l : List XR) : (h ++ [l]).at h.length = l := by simp [Mem.at, List.getD]

theorem prefix_same {h h' : Mem} (hp : h <+: h') : ∀ k < h.length, h'[k]? = h[k]? := by
  obtain ⟨t, rfl⟩ := hp
  intro k hk
  exact List.getElem?_append_left hk

/-- The arrays that a fit object refers to exist. -/
def FPIObj.Lives (X : FPIObj) (h : Mem) : Prop := X.points < h.length ∧ X.density < h.length

theorem view_prefix {X : FPIObj} {h h' : Mem} (hX : X.Lives h) (hp : h <+: h') : X.view h' = X.view h := by
  simp only [FPIObj.view, at_prefix hp hX.1, at_prefix hp hX.2]

theorem set_at (p : List XR) (n : ℕ) (x : XR) :
    (p ++ List.replicate (n + 1) (XR.fin 0)).set p.length x = (p ++ [x]) ++ List.replicate n (XR.fin 0) := by
  simp [List.replicate_succ]

theorem averages_snd {F : FPI} {dk : List XR} {dm : List (List XR)} {i : ℕ} {x y : XR}
    (h : F.averages dk dm false i = .ok (x, y)) : y = XR.fin 0 := by
  unfold FPI.averages at h
  simp only [Bool.false_eq_true, if_false] at h
  split at h
  · simp at h
  · simp only [Except.ok.injEq, Prod.mk.injEq] at h
    exact h.2.symm

theorem put_two (h : Mem) (a b : List XR) (i : ℕ) (x : XR) :
    Mem.put (h ++ [a, b]) h.length i x = h ++ [a.set i x, b] ∧
    Mem.put (h ++ [a, b]) (h.length + 1) i x = h ++ [a, b.set i x] := by
  constructor
  · simp [Mem.put, Mem.at, List.getD]
  · simp [Mem.put, Mem.at, List.getD]

/-- The loop that fills the two arrays of averages. -/
theorem fill_eq (X : FPIObj) (h : Mem) (hX : X.Lives h) (dk : List XR) (dm : List (List XR)) (ue : Bool) (n : ℕ) :
    ∀ (s : ℕ) (p q : List XR), p.length = s → q.length = s →
    X.fill dk dm ue h.length (h.length + 1) (List.range' s n)
        (h ++ [p ++ List.replicate n (XR.fin 0), q ++ List.replicate n (XR.fin 0)]) =
      match mapPy ((X.view h).averages dk dm ue) (List.range' s n) with
      | .error e => .error e
      | .ok avrg => .ok (h ++ [p ++ avrg.map Prod.fst, q ++ avrg.map Prod.snd]) := by
  induction n with
  | zero => intro s p q hp hq; simp [FPIObj.fill, mapPy]
  | succ n ih =>
    intro s p q hp hq
    rw [List.range'_succ]
    simp only [FPIObj.fill, mapPy]
    rw [view_prefix hX (h' := h ++ _) ⟨_, rfl⟩]
    cases hav : (X.view h).averages dk dm ue s with
    | error e => rfl
    | ok xy =>
      obtain ⟨x, y⟩ := xy
      simp only
      rw [(put_two h _ _ s x).1]
      have e1 : (p ++ List.replicate (n + 1) (XR.fin 0)).set s x = (p ++ [x]) ++ List.replicate n (XR.fin 0) := by
        rw [← hp]; exact set_at p n x
      have e2 : (q ++ List.replicate (n + 1) (XR.fin 0)).set s y = (q ++ [y]) ++ List.replicate n (XR.fin 0) := by
        rw [← hq]; exact set_at q n y
      have key : (if ue = true then Mem.put (h ++ [(p ++ List.replicate (n + 1) (XR.fin 0)).set s x,
            q ++ List.replicate (n + 1) (XR.fin 0)]) (h.length + 1) s y else
            h ++ [(p ++ List.replicate (n + 1) (XR.fin 0)).set s x, q ++ List.replicate (n + 1) (XR.fin 0)]) =
          h ++ [(p ++ [x]) ++ List.replicate n (XR.fin 0), (q ++ [y]) ++ List.replicate n (XR.fin 0)] := by
        cases ue with
        | true => simp only [if_true]; rw [(put_two h _ _ s y).2, e1, e2]
        | false =>
          have hy := averages_snd hav
          simp only [Bool.false_eq_true, if_false]
          rw [e1, hy, List.replicate_succ]
          simp
      rw [key, ih (s + 1) (p ++ [x]) (q ++ [y]) (by simp [hp]) (by simp [hq])]
      cases mapPy ((X.view h).averages dk dm ue) (List.range' (s + 1) n) with
      | error e => rfl
      | ok l => simp

/-- `_update_params` on arrays against `_update_params` on values. -/
theorem update_sim (X : FPIObj) (h : Mem) (hX : X.Lives h) (c e : ℕ) (hc : c < h.length) (he : e < h.length)
    (uc ue : Bool) :
    match X.update h c e uc ue with
    | .error err => (X.view h).updateParams (h.at c) (h.at e) uc ue = .error err
    | .ok (h', c', e') =>
      (X.view h).updateParams (h.at c) (h.at e) uc ue = .ok (h'.at c', h'.at e') ∧ h <+: h' ∧
      c' < h'.length ∧ e' < h'.length ∧
      (if uc then h.length ≤ c' else c' = c) ∧ (if ue then h.length ≤ e' else e' = e) ∧ (uc → ue → c' ≠ e') := by
  unfold FPIObj.update FPI.updateParams
  by_cases h0 : uc = false ∧ ue = false
  · simp [h0, raise]
  · rw [if_neg h0, if_neg h0]
    have hv : (X.view h).model = X.model := rfl
    have hd : (X.view h).density = h.at X.density := rfl
    have hl : (X.view h).lm = X.lm := rfl
    rw [hv, hd, hl]
    cases X.model.evaluate (h.at c) (h.at e) true with
    | error err => rfl
    | ok mdm =>
      obtain ⟨m, dm⟩ := mdm
      simp only
      cases (X.view h).klError.evaluate (.arr (ND.vec (h.at X.density))) (.arr (ND.vec m)) (.bool true) with
      | error err => rfl
      | ok kdk =>
        obtain ⟨k, dk⟩ := kdk
        simp only [Mem.new]
        have hfill := fill_eq X h hX (dk.getD []) (dm.getD []) ue X.model.nbasis.toNat 0 [] [] rfl rfl
        simp only [List.nil_append] at hfill
        rw [← List.range_eq_range'] at hfill
        have ha : h ++ [List.replicate X.model.nbasis.toNat (XR.fin 0)] ++ [List.replicate X.model.nbasis.toNat (XR.fin 0)] =
            h ++ [List.replicate X.model.nbasis.toNat (XR.fin 0), List.replicate X.model.nbasis.toNat (XR.fin 0)] := by
          simp
        have hlen : (h ++ [List.replicate X.model.nbasis.toNat (XR.fin 0)]).length = h.length + 1 := by simp
        rw [ha, hlen, hfill]
        cases mapPy ((X.view h).averages (dk.getD []) (dm.getD []) ue) (List.range X.model.nbasis.toNat) with
        | error err => rfl
        | ok avrg =>
          simp only
          set a := avrg.map Prod.fst
          set b := avrg.map Prod.snd
          have hpre : h <+: h ++ [a, b] := ⟨_, rfl⟩
          have h1 : (h ++ [a, b]).at h.length = a := by simp [Mem.at, List.getD]
          have h2 : (h ++ [a, b]).at (h.length + 1) = b := by simp [Mem.at, List.getD]
          have h3 : (h ++ [a, b]).at c = h.at c := at_prefix hpre hc
          have h3' : (h ++ [a, b]).at e = h.at e := at_prefix hpre he
          have h4 : ∀ l : List XR, (h ++ [a, b] ++ [l]).at h.length = a := fun l => by simp [Mem.at, List.getD]
          have h5 : ∀ l : List XR, (h ++ [a, b] ++ [l]).at (h.length + 1) = b := fun l => by simp [Mem.at, List.getD]
          have h6 : ∀ l : List XR, (h ++ [a, b] ++ [l]).at e = h.at e := fun l => at_prefix ⟨[a, b] ++ [l], by simp⟩ he
          have h7 : ∀ l : List XR, (h ++ [a, b] ++ [l]).at c = h.at c := fun l => at_prefix ⟨[a, b] ++ [l], by simp⟩ hc
          have h8 : ∀ l : List XR, (h ++ [a, b] ++ [l]).at (h ++ [a, b]).length = l := fun l => at_last _ l
          have h9 : ∀ l l' : List XR, (h ++ [a, b] ++ [l] ++ [l']).at (h ++ [a, b]).length = l := by
            intro l l'; rw [at_prefix (h := h ++ [a, b] ++ [l]) ⟨_, rfl⟩ (by simp)]; exact h8 l
          have h10 : ∀ l l' : List XR, (h ++ [a, b] ++ [l] ++ [l']).at (h ++ [a, b] ++ [l]).length = l' :=
            fun l l' => at_last _ l'
          cases uc <;> cases ue
          · exact absurd ⟨rfl, rfl⟩ h0
          · simp only [Bool.false_eq_true, if_false, if_true, h1, h2, h7, h8]
            refine ⟨trivial, ⟨_, (List.append_assoc ..).symm⟩, ?_, ?_, trivial, ?_, by simp⟩ <;> (simp; try omega)
          · simp only [Bool.false_eq_true, if_false, if_true, h1, h3, h6, h8]
            refine ⟨trivial, ⟨_, (List.append_assoc ..).symm⟩, ?_, ?_, ?_, trivial, by simp⟩ <;> (simp; try omega)
          · simp only [if_true, h1, h3, h4, h5, h9, h10]
            refine ⟨trivial, ((List.prefix_append _ _).trans (List.prefix_append _ _)).trans (List.prefix_append _ _), ?_, ?_, ?_, ?_, ?_⟩ <;> simp

/-- The loop variables as values. -/
def MState.view (s : MState) (h : Mem) : FPIState :=
  ⟨h.at s.cs, h.at s.es, s.diffDiv, s.maxDC, s.maxDE, s.performance⟩

/-- One round of the loop. -/
theorem step_sim (X : FPIObj) (o : FPIOpts) (h : Mem) (hX : X.Lives h) (s : MState) (hc : s.cs < h.length)
    (he : s.es < h.length) :
    match X.step o h s with
    | .error err => (X.view h).step o (s.view h) = .error err
    | .ok (h', s') =>
      (X.view h).step o (s.view h) = .ok (s'.view h') ∧ h <+: h' ∧
      s'.cs < h'.length ∧ s'.es < h'.length ∧ s'.performance.length = s.performance.length + 1 ∧
      (if o.optCoeffs then h.length ≤ s'.cs else s'.cs = s.cs) ∧
      (if o.optExpons then h.length ≤ s'.es else s'.es = s.es) ∧ (o.optCoeffs → o.optExpons → s'.cs ≠ s'.es) := by
  have hu := update_sim X h hX s.cs s.es hc he o.optCoeffs o.optExpons
  unfold FPIObj.step FPI.step
  by_cases h0 : o.optCoeffs = false ∧ o.optExpons = false
  · rw [if_pos h0, if_pos h0]; rfl
  · rw [if_neg h0, if_neg h0]
    simp only [MState.view]
    cases hup : X.update h s.cs s.es o.optCoeffs o.optExpons with
    | error err => rw [hup] at hu; simp only at hu; simp only [hu]
    | ok t =>
      obtain ⟨h', c', e'⟩ := t
      rw [hup] at hu
      simp only at hu
      obtain ⟨hu, hpre, k1, k2, k3, k4, k5⟩ := hu
      simp only [hu]
      rw [at_prefix hpre hc, at_prefix hpre he, view_prefix hX hpre]
      cases maxChange (h'.at c') (h.at s.cs) with
      | error err => rfl
      | ok dc =>
        simp only
        cases maxChange (h'.at e') (h.at s.es) with
        | error err => rfl
        | ok de =>
          simp only
          cases (X.view h).goodness (h'.at c') (h'.at e') with
          | error err => rfl
          | ok p => exact ⟨rfl, hpre, k1, k2, by simp, k3, k4, k5⟩

/-- The loop. -/
theorem loop_sim (X : FPIObj) (o : FPIOpts) (n : ℕ) : ∀ (h : Mem), X.Lives h → ∀ s : MState, s.cs < h.length →
    s.es < h.length →
    match X.loop o n h s with
    | .error err => (X.view h).loop o n (s.view h) = .error err
    | .ok (h', s') =>
      (X.view h).loop o n (s.view h) = .ok (s'.view h') ∧ h <+: h' ∧
      s'.cs < h'.length ∧ s'.es < h'.length ∧ s.performance.length ≤ s'.performance.length ∧
      (if o.optCoeffs ∧ s.performance.length < s'.performance.length then h.length ≤ s'.cs else s'.cs = s.cs) ∧
      (if o.optExpons ∧ s.performance.length < s'.performance.length then h.length ≤ s'.es else s'.es = s.es) ∧
      (o.optCoeffs → o.optExpons → s.performance.length < s'.performance.length → s'.cs ≠ s'.es) := by
  induction n with
  | zero => intro h hX s hc he; simp [FPIObj.loop, FPI.loop, hc, he]
  | succ n ih =>
    intro h hX s hc he
    simp only [FPIObj.loop, FPI.loop]
    have hst := step_sim X o h hX s hc he
    by_cases hn : (s.maxDE > o.eThr ∨ s.maxDC > o.cThr) ∧ s.diffDiv > o.dThr
    · have hn' : (s.view h).notConverged o := hn
      rw [if_pos hn, if_pos hn']
      cases hs : X.step o h s with
      | error err => rw [hs] at hst; simp only at hst; simp only [hst]
      | ok t =>
        obtain ⟨h1, s1⟩ := t
        rw [hs] at hst
        simp only at hst
        obtain ⟨g1, g2, g3, g4, g5, g6, g7, g8⟩ := hst
        simp only [g1]
        have hX1 : X.Lives h1 := ⟨lt_of_lt_of_le hX.1 g2.length_le, lt_of_lt_of_le hX.2 g2.length_le⟩
        have hi := ih h1 hX1 s1 g3 g4
        rw [view_prefix hX g2] at hi
        cases hl : X.loop o n h1 s1 with
        | error err => rw [hl] at hi; exact hi
        | ok t =>
          obtain ⟨h2, s2⟩ := t
          rw [hl] at hi
          simp only at hi
          obtain ⟨f1, f2, f3, f4, f5, f6, f7, f8⟩ := hi
          have hlen := g2.length_le
          have hlt : s.performance.length < s2.performance.length := by omega
          refine ⟨f1, g2.trans f2, f3, f4, hlt.le, ?_, ?_, ?_⟩
          · simp only [hlt, and_true]
            cases hb : o.optCoeffs
            · simp only [hb, Bool.false_eq_true, false_and, if_false] at f6 g6 ⊢
              rw [f6]; exact g6
            · simp only [hb, true_and, if_true] at f6 g6 ⊢
              split at f6 <;> omega
          · simp only [hlt, and_true]
            cases hb : o.optExpons
            · simp only [hb, Bool.false_eq_true, false_and, if_false] at f7 g7 ⊢
              rw [f7]; exact g7
            · simp only [hb, true_and, if_true] at f7 g7 ⊢
              split at f7 <;> omega
          · intro a b _
            by_cases hlt' : s1.performance.length < s2.performance.length
            · exact f8 a b hlt'
            · simp only [hlt', and_false, if_false] at f6 f7
              rw [f6, f7]; exact g8 a b
    · have hn' : ¬ (s.view h).notConverged o := hn
      rw [if_neg hn, if_neg hn']
      simp [hc, he]

/-- **C138** (fixed-point fit).  `run` changes no array that exists when it is called: neither the arrays `c0` and `e0`
nor the density and the grid points that the fit object refers to.  Its outcome is that of the model on values
(`FPI.run`).  The returned coefficients are the array `c0` itself if the coefficients are not optimised or no iteration
was made, and a new array otherwise; likewise the exponents.  -/
theorem C138_run (X : FPIObj) (h : Mem) (c0 e0 : ℕ) (o : FPIOpts) (hp : X.points < h.length)
    (hd : X.density < h.length) (hc : c0 < h.length) (he : e0 < h.length) :
    (∀ err, X.run h c0 e0 o = .error err ↔
      FPI.run (X.view h) (.arr (ND.vec (h.at c0))) (.arr (ND.vec (h.at e0))) o = .error err) ∧
    ∀ h' r, X.run h c0 e0 o = .ok (h', r) →
      (∀ k < h.length, h'[k]? = h[k]?) ∧
      FPI.run (X.view h) (.arr (ND.vec (h.at c0))) (.arr (ND.vec (h.at e0))) o =
        .ok ⟨h'.at r.coeffs, h'.at r.exps, r.fun_, r.success, r.performance⟩ ∧
      (o.optCoeffs = false ∨ r.performance = [] → r.coeffs = c0) ∧
      (o.optCoeffs = true → r.performance ≠ [] → h.length ≤ r.coeffs ∧ r.coeffs < h'.length) ∧
      (o.optExpons = false ∨ r.performance = [] → r.exps = e0) ∧
      (o.optExpons = true → r.performance ≠ [] → h.length ≤ r.exps ∧ r.exps < h'.length) ∧
      (o.optCoeffs = true → o.optExpons = true → r.performance ≠ [] → r.coeffs ≠ r.exps) := by
  unfold FPIObj.run FPI.run
  have hsh : ∀ l : List XR, (ND.vec l).shape.map Int.ofNat ≠ [(X.view h).model.nbasis] ↔
      (l.length : ℤ) ≠ X.model.nbasis := by
    intro l; simp [ND.vec, FPIObj.view]
  simp only [hsh]
  have hdat : ∀ l : List XR, (ND.vec l).data = l := fun l => rfl
  rw [hdat, hdat]
  have hl := loop_sim X o o.maxiter.toNat h ⟨hp, hd⟩ ⟨c0, e0, XR.pinf, XR.pinf, XR.pinf, []⟩ hc he
  by_cases h1 : ((h.at c0).length : ℤ) ≠ X.model.nbasis
  · rw [if_pos h1, if_pos h1]; simp [raise]
  · rw [if_neg h1, if_neg h1]
    by_cases h2 : ((h.at e0).length : ℤ) ≠ X.model.nbasis
    · rw [if_pos h2, if_pos h2]; simp [raise]
    · rw [if_neg h2, if_neg h2]
      cases hr : X.loop o o.maxiter.toNat h ⟨c0, e0, XR.pinf, XR.pinf, XR.pinf, []⟩ with
      | error err =>
        rw [hr] at hl
        simp only [MState.view] at hl
        simp [hl]
      | ok t =>
        obtain ⟨h', s⟩ := t
        rw [hr] at hl
        simp only [MState.view] at hl
        obtain ⟨g1, g2, g3, g4, -, g6, g7, g8⟩ := hl
        simp only [g1]
        refine ⟨by simp, ?_⟩
        intro h'' r hh
        simp only [Except.ok.injEq, Prod.mk.injEq] at hh
        obtain ⟨rfl, rfl⟩ := hh
        simp only [List.length_nil, List.length_pos_iff] at g6 g7 g8
        refine ⟨prefix_same g2, rfl, ?_, ?_, ?_, ?_, ?_⟩
        · intro ho
          rw [if_neg] at g6
          · exact g6
          · rintro ⟨a, b⟩
            rcases ho with ho | ho
            · simp [a] at ho
            · exact b ho
        · intro a b; simp only [a, b, ne_eq, not_false_eq_true, and_self, if_true] at g6; exact ⟨g6, g3⟩
        · intro ho
          rw [if_neg] at g7
          · exact g7
          · rintro ⟨a, b⟩
            rcases ho with ho | ho
            · simp [a] at ho
            · exact b ho
        · intro a b; simp only [a, b, ne_eq, not_false_eq_true, and_self, if_true] at g7; exact ⟨g7, g4⟩
        · intro a b c; exact g8 a b c

/-- **C138** (two runs).  As `run` changes neither its arguments nor what the object refers to, a second call with the
same arrays gives the same outcome; arrays made by the two calls are different. -/
theorem C138_again (X : FPIObj) (h : Mem) (c0 e0 : ℕ) (o : FPIOpts) (hp : X.points < h.length)
    (hd : X.density < h.length) (hc : c0 < h.length) (he : e0 < h.length) (h1 : Mem) (r1 : MResult)
    (hr : X.run h c0 e0 o = .ok (h1, r1)) :
    ∃ h2 r2, X.run h1 c0 e0 o = .ok (h2, r2) ∧ h2.at r2.coeffs = h1.at r1.coeffs ∧ h2.at r2.exps = h1.at r1.exps ∧
      r2.fun_ = r1.fun_ ∧ r2.success = r1.success ∧ r2.performance = r1.performance ∧
      (∀ k < h1.length, h2[k]? = h1[k]?) ∧
      (o.optCoeffs = true → r1.performance ≠ [] → r2.coeffs ≠ r1.coeffs) ∧
      (o.optExpons = true → r1.performance ≠ [] → r2.exps ≠ r1.exps) := by
  obtain ⟨-, hok⟩ := C138_run X h c0 e0 o hp hd hc he
  obtain ⟨hsame, hval, -, hcn, -, hen, -⟩ := hok h1 r1 hr
  have hlen : h.length ≤ h1.length := by
    by_contra hcon
    have h1l := hsame h1.length (by omega)
    rw [List.getElem?_eq_none (le_refl _), List.getElem?_eq_getElem (by omega)] at h1l
    simp at h1l
  have hat : ∀ k < h.length, h1.at k = h.at k := by
    intro k hk
    simp [Mem.at, List.getD, hsame k hk]
  have hview : X.view h1 = X.view h := by simp [FPIObj.view, hat _ hp, hat _ hd]
  obtain ⟨herr2, hok2⟩ := C138_run X h1 c0 e0 o (by omega) (by omega) (by omega) (by omega)
  rw [hview, hat _ hc, hat _ he, hval] at herr2 hok2
  cases hr2 : X.run h1 c0 e0 o with
  | error err => have := (herr2 err).mp hr2; simp at this
  | ok t =>
    obtain ⟨h2, r2⟩ := t
    obtain ⟨k1, k2, -, k4, -, k6, -⟩ := hok2 h2 r2 hr2
    simp only [Except.ok.injEq, FPIResult.mk.injEq] at k2
    obtain ⟨j1, j2, j3, j4, j5⟩ := k2
    refine ⟨h2, r2, rfl, j1.symm, j2.symm, j3.symm, j4.symm, j5.symm, k1, ?_, ?_⟩
    · intro a b
      have := (k4 a (j5 ▸ b)).1
      have := (hcn a b).2
      omega
    · intro a b
      have := (k6 a (j5 ▸ b)).1
      have := (hen a b).2
      omega

/-- **C138** (construction).  The constructor makes no copies: the object refers to the given arrays, and amounts to the
value-level object built from their contents. -/
theorem C138_init (h : Mem) (points density : ℕ) (model : GModel) (mask : XR) (T : Option XR) (spherical : Bool) :
    (∀ err, FPIObj.init h points density model mask T spherical = .error err ↔
      FPI.init (.radial ⟨h.at points⟩) (h.at density) model mask T spherical = .error err) ∧
    ∀ X, FPIObj.init h points density model mask T spherical = .ok X →
      X.points = points ∧ X.density = density ∧
      FPI.init (.radial ⟨h.at points⟩) (h.at density) model mask T spherical = .ok (X.view h) := by
  unfold FPIObj.init
  cases hF : FPI.init (.radial ⟨h.at points⟩) (h.at density) model mask T spherical with
  | error e => simp
  | ok F =>
    refine ⟨by simp, ?_⟩
    intro X hX
    simp only [Except.ok.injEq] at hX
    subst hX
    refine ⟨rfl, rfl, ?_⟩
    simp only [FPIObj.view, Except.ok.injEq]
    unfold FPI.init at hF
    have hfit : ∀ G, Fit.init (.radial ⟨h.at points⟩) (h.at density) model T spherical mask = .ok G →
        G.grid = .radial ⟨h.at points⟩ ∧ G.density = h.at density ∧ G.model = model ∧ G.spherical = spherical ∧
        G.maskValue = mask := by
      intro G hG
      unfold Fit.init at hG
      split at hG
      · simp [raise] at hG
      · split at hG
        · simp [raise] at hG
        · cases T with
          | some v => simp only [Except.ok.injEq] at hG; subst hG; exact ⟨rfl, rfl, rfl, rfl, rfl⟩
          | none =>
            simp only at hG
            split at hG
            · simp at hG
            · simp only [Except.ok.injEq] at hG; subst hG; exact ⟨rfl, rfl, rfl, rfl, rfl⟩
    split at hF
    · simp at hF
    · rename_i G hG
      obtain ⟨a1, a2, a3, a4, a5⟩ := hfit G hG
      split at hF
      · simp at hF
      · simp only at hF
        split at hF
        · simp [raise] at hF
        · simp only [Except.ok.injEq] at hF
          subst hF
          simp only [← a1, ← a2, ← a3, ← a4, ← a5]

/-- **C138** (arrays changed after construction).  The multiplier is computed once, from the density and the grid at the
time of construction (integral `∑ W f`), while an update reads the arrays as they are when it is called.  If the caller
has changed the density array or the array of grid points in between (so that the integral is now `∑ W' g`), the
coefficients after an update sum to `integral_dens` times the quotient of the two integrals, and not to `integral_dens`. -/
theorem C138_changed {X : FPIObj} {h h1 : Mem} {norm : Bool} {S : Shape} {N : ℕ} {W W' f g : ℕ → ℝ} {μ T : ℝ}
    (hF : IsFPI (X.view h) norm S N W f μ T) (hG : FitData (X.view h1).toFit norm S N W' g)
    (hg : ∀ i < N, 0 ≤ g i) (hi : ∑ i ∈ range N, W' i * g i ≠ 0)
    (hp : X.points < h1.length) (hd : X.density < h1.length) (c e : ℕ) (hc : c < h1.length) (he : e < h1.length)
    (cv ev : List ℝ) (hcv : h1.at c = fins cv) (hev : h1.at e = fins ev)
    (hcl : cv.length = S.nb) (hel : ev.length = S.nb) (hpos : norm = true → ∀ a ∈ ev, 0 ≤ a)
    (hu : S.AllUnmasked norm N μ g cv ev) (ue : Bool) :
    ∃ h2 c' e' cv', X.update h1 c e true ue = .ok (h2, c', e') ∧ h2.at c' = fins cv' ∧
      cv'.sum = T * ((∑ i ∈ range N, W' i * g i) / ∑ i ∈ range N, W i * f i) := by
  set I := ∑ i ∈ range N, W i * f i with hI
  set J := ∑ i ∈ range N, W' i * g i with hJ
  have hIne : I ≠ 0 := fun h0 => hF.lm_ne (by rw [← hI, h0, zero_div])
  have hTne : T ≠ 0 := fun h0 => hF.lm_ne (by rw [h0, div_zero])
  have hlm : J / (T * (J / I)) = I / T := by field_simp
  set F' : FPI := { X.view h1 with integralDens := XR.fin (T * (J / I)) } with hF'
  have hIs : IsFPI F' norm S N W' g μ (T * (J / I)) :=
    { data := ⟨hG.model, hG.dens, hG.quad⟩
      f_nonneg := hg
      mask := hF.mask
      target := rfl
      lm := by rw [← hJ, hlm]; exact hF.lm
      lm_ne := by rw [← hJ, hlm]; exact hF.lm_ne }
  obtain ⟨c', es', h3, -, h5, -⟩ := C35_conservation hIs cv ev hcl hel hpos hu ue
  have h3' : (X.view h1).updateParams (h1.at c) (h1.at e) true ue = .ok (fins c', es') := by
    rw [hcv, hev]; exact h3
  have hs := update_sim X h1 ⟨hp, hd⟩ c e hc he true ue
  cases hup : X.update h1 c e true ue with
  | error err => rw [hup] at hs; simp only at hs; rw [h3'] at hs; simp at hs
  | ok t =>
    obtain ⟨h2, a, b⟩ := t
    rw [hup] at hs
    simp only at hs
    have := hs.1
    rw [h3'] at this
    simp only [Except.ok.injEq, Prod.mk.injEq] at this
    exact ⟨h2, a, b, c', rfl, this.1.symm, h5⟩

/-! ### the optimiser -/

/-- An optimiser that leaves every array alone except `x0`, which it may change, and returns its result in `x0` or in a
new array. -/
def Tame (minimize : SProblem → Mem → ℕ → Mem × Py MRes) : Prop :=
  ∀ P h x, x < h.length → (∀ k < h.length, k ≠ x → (minimize P h x).1[k]? = h[k]?) ∧
    ∀ r, (minimize P h x).2 = .ok r → r.x < (minimize P h x).1.length ∧ (r.x = x ∨ h.length ≤ r.x)

/-- The optimiser computes, when `x0` holds the starting point, what the value-level optimiser `v` computes. -/
def Computes (minimize : SProblem → Mem → ℕ → Mem × Py MRes) (v : SProblem → Py SRes) : Prop :=
  ∀ P h x, x < h.length → h.at x = P.x0 →
    v P = match (minimize P h x).2 with
      | .error e => .error e
      | .ok r => .ok ⟨(minimize P h x).1.at r.x, r.fun_, r.jac, r.success, r.message⟩

theorem at_congr {h h' : Mem} {k : ℕ} (hk : h'[k]? = h[k]?) : h'.at k = h.at k := by simp [Mem.at, List.getD, hk]

theorem length_le_of_same {h h' : Mem} (hs : ∀ k < h.length, h'[k]? = h[k]?) : h.length ≤ h'.length := by
  by_contra hcon
  have h1l := hs h'.length (by omega)
  rw [List.getElem?_eq_none (le_refl _), List.getElem?_eq_getElem (by omega)] at h1l
  simp at h1l

/-- The part of `ScipyFit.run` after the copy of the starting point. -/
theorem scipy_core {minimize : SProblem → Mem → ℕ → Mem × Py MRes} {v : SProblem → Py SRes} (ht : Tame minimize)
    (hv : Computes minimize v) (P : SProblem) (h : Mem) (x0 : List XR) (hx : x0 = P.x0) :
    let out := minimize P (h ++ [x0]) h.length
    (∀ k < h.length, out.1[k]? = h[k]?) ∧ h.length ≤ out.1.length ∧
    (∀ e, out.2 = .error e → v P = .error e) ∧
    ∀ r, out.2 = .ok r → v P = .ok ⟨out.1.at r.x, r.fun_, r.jac, r.success, r.message⟩ ∧ h.length ≤ r.x ∧
      r.x < out.1.length := by
  intro out
  have hl : h.length < (h ++ [x0]).length := by simp
  obtain ⟨t1, t2⟩ := ht P (h ++ [x0]) h.length hl
  have hc := hv P (h ++ [x0]) h.length hl (by rw [at_last, hx])
  have hs : ∀ k < h.length, out.1[k]? = h[k]? := by
    intro k hk
    rw [t1 k (by simp; omega) (by omega), List.getElem?_append_left hk]
  refine ⟨hs, length_le_of_same hs, ?_, ?_⟩
  · intro e he; rw [hc, show (minimize P (h ++ [x0]) h.length).2 = _ from he]
  · intro r hr
    rw [hc, show (minimize P (h ++ [x0]) h.length).2 = _ from hr]
    obtain ⟨a, b⟩ := t2 r hr
    refine ⟨rfl, ?_, a⟩
    rcases b with b | b
    · omega
    · simp at b; omega

/-- **C138** (ScipyFit).  Even with an optimiser that works in place on the array it is given, `ScipyFit.run` changes no
array that exists when it is called, because the optimiser gets a copy.  The outcome is that of the value-level model.
The parameters that are not optimised are returned as the given array itself; the optimised ones are in new arrays. -/
theorem C138_scipy (S : SFit) (minimize : SProblem → Mem → ℕ → Mem × Py MRes) (v : SProblem → Py SRes)
    (ht : Tame minimize) (hv : Computes minimize v) (h : Mem) (c0 e0 : ℕ) (o : SOpts) (hc : c0 < h.length)
    (he : e0 < h.length) :
    (∀ k < h.length, (S.runM minimize h c0 e0 o).1[k]? = h[k]?) ∧
    (∀ err, (S.runM minimize h c0 e0 o).2 = .error err ↔ S.run v (h.at c0) (h.at e0) o = .error err) ∧
    ∀ r, (S.runM minimize h c0 e0 o).2 = .ok r →
      S.run v (h.at c0) (h.at e0) o =
        .ok ⟨(S.runM minimize h c0 e0 o).1.at r.coeffs, (S.runM minimize h c0 e0 o).1.at r.exps, r.fun_, r.success,
          r.message, r.jacobian, r.performance⟩ ∧
      (if o.optCoeffs then h.length ≤ r.coeffs else r.coeffs = c0) ∧
      (if o.optExpons then h.length ≤ r.exps else r.exps = e0) ∧
      (o.optCoeffs = true → o.optExpons = true → r.coeffs ≠ r.exps) := by
  unfold SFit.runM SFit.run
  cases hP : S.problem (h.at c0) (h.at e0) o with
  | error e => simp
  | ok P =>
    have hx0 : S.setup (h.at c0) (h.at e0) o.optCoeffs o.optExpons = .ok (P.bounds, P.x0, (match
        S.setup (h.at c0) (h.at e0) o.optCoeffs o.optExpons with | .ok t => t.2.2 | .error _ => .none)) := by
      unfold SFit.problem at hP
      cases hs : S.setup (h.at c0) (h.at e0) o.optCoeffs o.optExpons with
      | error e => rw [hs] at hP; simp at hP
      | ok t =>
        obtain ⟨b, x, a⟩ := t
        rw [hs] at hP
        simp only [Except.ok.injEq] at hP
        subst hP
        rfl
    cases hoc : o.optCoeffs <;> cases hoe : o.optExpons
    · simp [SFit.setup, hoc, hoe, raise] at hx0
    · -- exponents only
      have hx : h.at e0 = P.x0 := by
        simp only [SFit.setup, hoc, hoe, Bool.false_and, Bool.false_eq_true, if_false, if_true, Except.ok.injEq,
          Prod.mk.injEq] at hx0
        exact hx0.2.1
      have hcore := scipy_core ht hv P h (h.at e0) hx
      simp only [Bool.false_and, Bool.false_eq_true, if_false, Mem.new] at hcore ⊢
      obtain ⟨k1, k2, k3, k4⟩ := hcore
      cases hm : minimize P (h ++ [h.at e0]) h.length with
      | mk h3 res =>
        rw [hm] at k1 k2 k3 k4
        cases res with
        | error e => simp only [k3 e rfl]; exact ⟨k1, by simp, by simp⟩
        | ok r =>
          obtain ⟨j1, j2, j3⟩ := k4 r rfl
          simp only [j1]
          rw [at_congr (k1 c0 hc)]
          cases S.goodness (h.at c0) (h3.at r.x) with
          | error e => exact ⟨k1, by simp, by simp⟩
          | ok p =>
            refine ⟨k1, by simp, ?_⟩
            intro r' hr'
            simp only [Except.ok.injEq] at hr'
            subst hr'
            simp [at_congr (k1 c0 hc), j2]
    · -- coefficients only
      have hx : h.at c0 = P.x0 := by
        simp only [SFit.setup, hoc, hoe, Bool.and_false, Bool.false_eq_true, if_false, if_true, Except.ok.injEq,
          Prod.mk.injEq] at hx0
        exact hx0.2.1
      have hcore := scipy_core ht hv P h (h.at c0) hx
      simp only [Bool.and_false, Bool.false_eq_true, if_false, if_true, Mem.new] at hcore ⊢
      obtain ⟨k1, k2, k3, k4⟩ := hcore
      cases hm : minimize P (h ++ [h.at c0]) h.length with
      | mk h3 res =>
        rw [hm] at k1 k2 k3 k4
        cases res with
        | error e => simp only [k3 e rfl]; exact ⟨k1, by simp, by simp⟩
        | ok r =>
          obtain ⟨j1, j2, j3⟩ := k4 r rfl
          simp only [j1]
          rw [at_congr (k1 e0 he)]
          cases S.goodness (h3.at r.x) (h.at e0) with
          | error e => exact ⟨k1, by simp, by simp⟩
          | ok p =>
            refine ⟨k1, by simp, ?_⟩
            intro r' hr'
            simp only [Except.ok.injEq] at hr'
            subst hr'
            simp [at_congr (k1 e0 he), j2]
    · -- both
      have hx : h.at c0 ++ h.at e0 = P.x0 := by
        simp only [SFit.setup, hoc, hoe, Bool.and_self, if_true, Except.ok.injEq, Prod.mk.injEq] at hx0
        exact hx0.2.1
      have hcore := scipy_core ht hv P (h ++ [h.at c0 ++ h.at e0]) (h.at c0 ++ h.at e0) hx
      simp only [Bool.and_self, if_true, Mem.new, at_last] at hcore ⊢
      obtain ⟨k1, k2, k3, k4⟩ := hcore
      have k1' : ∀ k < h.length, (minimize P (h ++ [h.at c0 ++ h.at e0] ++ [h.at c0 ++ h.at e0])
          (h ++ [h.at c0 ++ h.at e0]).length).1[k]? = h[k]? := by
        intro k hk
        rw [k1 k (by simp; omega), List.getElem?_append_left hk]
      cases hm : minimize P (h ++ [h.at c0 ++ h.at e0] ++ [h.at c0 ++ h.at e0])
          (h ++ [h.at c0 ++ h.at e0]).length with
      | mk h3 res =>
        rw [hm] at k1 k2 k3 k4 k1'
        cases res with
        | error e => simp only [k3 e rfl]; exact ⟨k1', by simp, by simp⟩
        | ok r =>
          obtain ⟨j1, j2, j3⟩ := k4 r rfl
          simp only [j1]
          have hl3 : h.length < h3.length := by simp at k2; omega
          set A := sliceTo (h3.at r.x) S.model.nbasis
          have e1 : (h3 ++ [A]).at r.x = h3.at r.x := at_prefix ⟨_, rfl⟩ j3
          rw [e1]
          set B := sliceFrom (h3.at r.x) S.model.nbasis
          have e2 : (h3 ++ [A] ++ [B]).at h3.length = A := by
            rw [at_prefix (h := h3 ++ [A]) ⟨_, rfl⟩ (by simp)]; exact at_last _ _
          have e3 : (h3 ++ [A] ++ [B]).at (h3 ++ [A]).length = B := at_last _ _
          have e4 : ∀ k < h.length, (h3 ++ [A] ++ [B])[k]? = h[k]? := by
            intro k hk
            rw [List.append_assoc, List.getElem?_append_left (by omega), k1' k hk]
          rw [e2]
          cases S.goodness A B with
          | error e => exact ⟨e4, by simp, by simp⟩
          | ok p =>
            refine ⟨e4, by simp, ?_⟩
            intro r' hr'
            simp only [Except.ok.injEq] at hr'
            subst hr'
            simp only [e2, e3]
            refine ⟨trivial, by omega, by simp; omega, by simp⟩

/-! ### the removal of redundancies -/

theorem modify_set (l : List XR) (i : ℕ) (x : XR) : l.modify i (· + x) = l.set i (l.getD i 0 + x) := by
  induction l generalizing i with
  | nil => simp
  | cons a l ih => cases i with
    | zero => simp
    | succ i => simp [ih]

theorem addGroupM_eq (h : Mem) (coeffs : ℕ) (hc : coeffs < h.length) (first : ℕ) (js : List ℕ) :
    ∀ nc ex : List XR, addGroupM coeffs h.length first js (h ++ [nc, ex]) =
      h ++ [js.foldl (fun nc j => nc.modify first (· + (h.at coeffs).getD j 0)) nc, ex] := by
  induction js with
  | nil => intro nc ex; rfl
  | cons j js ih =>
    intro nc ex
    simp only [addGroupM, List.foldl_cons]
    have h1 : Mem.at (h ++ [nc, ex]) h.length = nc := by simp [Mem.at, List.getD]
    have h2 : Mem.at (h ++ [nc, ex]) coeffs = h.at coeffs := at_prefix ⟨_, rfl⟩ hc
    rw [(put_two h nc ex first _).1, h1, h2, ih, ← modify_set]

theorem addGroupsM_eq (h : Mem) (coeffs : ℕ) (hc : coeffs < h.length) (gs : List (List ℕ)) :
    ∀ nc ex : List XR, addGroupsM coeffs h.length gs (h ++ [nc, ex]) =
      h ++ [gs.foldl (addGroup (h.at coeffs)) nc, ex] := by
  induction gs with
  | nil => intro nc ex; rfl
  | cons g gs ih =>
    intro nc ex
    simp only [addGroupsM, List.foldl_cons]
    rw [addGroupM_eq h coeffs hc, ih]
    rfl

/-- **C138** (redundancies).  `remove_redundancies` changes no existing array, although it adds up coefficients in place,
and its two results are new arrays, different from each other, with the contents of the value-level model. -/
theorem C138_redundancies (h : Mem) (coeffs fparams : ℕ) (eps : XR) (hc : coeffs < h.length)
    (hf : fparams < h.length) :
    ∃ h' a b, removeRedundanciesM h coeffs fparams eps = (h', a, b) ∧ (∀ k < h.length, h'[k]? = h[k]?) ∧
      (h'.at a, h'.at b) = removeRedundancies (h.at coeffs) (h.at fparams) eps ∧
      h.length ≤ a ∧ a < h'.length ∧ h.length ≤ b ∧ b < h'.length ∧ a ≠ b := by
  unfold removeRedundanciesM removeRedundancies
  simp only [Mem.new]
  have h1 : (h ++ [h.at coeffs]).at fparams = h.at fparams := at_prefix ⟨_, rfl⟩ hf
  have h2 : h ++ [h.at coeffs] ++ [h.at fparams] = h ++ [h.at coeffs, h.at fparams] := by simp
  have h3 : Mem.at (h ++ [h.at coeffs, h.at fparams]) fparams = h.at fparams := at_prefix ⟨_, rfl⟩ hf
  simp only [h1, h2, h3, addGroupsM_eq h coeffs hc]
  set same := indexesSame (h.at fparams) eps
  set A := same.foldl (addGroup (h.at coeffs)) (h.at coeffs)
  have g1 : Mem.at (h ++ [A, h.at fparams]) (h ++ [h.at coeffs]).length = h.at fparams := by simp [Mem.at, List.getD]
  have g2 : ∀ l : List XR, Mem.at (h ++ [A, h.at fparams] ++ [l]) h.length = A := by
    intro l; simp [Mem.at, List.getD]
  have g3 : Mem.at (h ++ [A, h.at fparams]) h.length = A := by simp [Mem.at, List.getD]
  by_cases hs : same.length ≠ 0
  · rw [if_pos hs, if_pos hs, g1, g2]
    refine ⟨_, _, _, rfl, ?_, ?_, ?_, ?_, ?_, ?_, ?_⟩
    · intro k hk; rw [List.append_assoc, List.append_assoc, List.getElem?_append_left hk]
    · rw [at_last, at_prefix (h := h ++ [A, h.at fparams] ++ [npDelete (h.at fparams) (same.flatMap List.tail)])
        ⟨_, rfl⟩ (by simp), at_last]
    all_goals simp
  · rw [if_neg hs, if_neg hs]
    refine ⟨_, _, _, rfl, ?_, ?_, ?_, ?_, ?_, ?_, ?_⟩
    · intro k hk; rw [List.getElem?_append_left hk]
    · rw [g1, g3]
    all_goals simp

/-! ### examples -/

/-- Four arrays: grid points, density, coefficients, exponents. -/
def demoMem : Mem := [fins [0, 1, 2], fins (tab 3 demoF), fins [1], fins [1]]

theorem demo_obj (T : ℝ) (hT : 0 < T) : ∃ X, FPIObj.init demoMem 0 1 (.atom (demoS true)) (XR.fin 0) (some (XR.fin T)) false =
    .ok X ∧ X.points = 0 ∧ X.density = 1 ∧ X.model = .atom (demoS true) ∧ X.spherical = false ∧
    IsFPI (X.view demoMem) true (atomShape [0, 1, 2] 1 0) 3 (vec [1 / 2, 1, 1 / 2]) demoF 0 T := by
  obtain ⟨F, h1, h2⟩ := demo_isFPI T hT
  obtain ⟨a, b⟩ := C138_init demoMem 0 1 (.atom (demoS true)) (XR.fin 0) (some (XR.fin T)) false
  have h1' : FPI.init (.radial ⟨demoMem.at 0⟩) (demoMem.at 1) (.atom (demoS true)) (XR.fin 0) (some (XR.fin T)) false =
      .ok F := h1
  cases hX : FPIObj.init demoMem 0 1 (.atom (demoS true)) (XR.fin 0) (some (XR.fin T)) false with
  | error e => have := (a e).mp hX; rw [h1'] at this; simp at this
  | ok X =>
    obtain ⟨c1, c2, c3⟩ := b X hX
    rw [h1'] at c3
    simp only [Except.ok.injEq] at c3
    refine ⟨X, rfl, c1, c2, ?_, ?_, c3 ▸ h2⟩
    · unfold FPIObj.init at hX; rw [h1'] at hX; simp only [Except.ok.injEq] at hX; rw [← hX]
    · unfold FPIObj.init at hX; rw [h1'] at hX; simp only [Except.ok.injEq] at hX; rw [← hX]

/-- A run that optimises the coefficients only: the exponents that it returns are the array that it was given, the
coefficients are a new array, and the four arrays are as before. -/
example : ∃ (X : FPIObj) (h' : Mem) (r : MResult), X.run demoMem 2 3 ⟨true, false, 5, XR.fin 0, XR.fin 0, XR.fin 0⟩ = .ok (h', r) ∧ r.exps = 3 ∧
    4 ≤ r.coeffs ∧ ∀ k < 4, h'[k]? = demoMem[k]? := by
  obtain ⟨X, -, hp, hd, -, -, h2⟩ := demo_obj 2 (by norm_num)
  set o : FPIOpts := ⟨true, false, 5, XR.fin 0, XR.fin 0, XR.fin 0⟩ with ho
  obtain ⟨r, n, cs, es, h3, h4, h5, h6⟩ := C39_total h2 demo_W (by norm_num) demo_sees o (.inl rfl) [1] [1]
    ⟨rfl, rfl, by simp, by simp⟩
  have hpos : r.performance ≠ [] := by
    intro h0
    have hrun := h3
    unfold FPI.run at hrun
    simp only at hrun
    split at hrun
    · simp [raise] at hrun
    split at hrun
    · simp at hrun
    rename_i s hs
    simp only [Except.ok.injEq] at hrun
    obtain ⟨k, tr', new, a1, a2, a3, -, -, -, -, a8, -, a10, -⟩ := loop_trace (X.view demoMem) o _ _ _ hs
    have hp : s.performance = [] := by rw [← h0, ← hrun]
    have : k = 0 := by rw [hp] at a3; simp at a3; rw [← a2, a3]; rfl
    have hs' := a10 this
    refine a8 (by simp [this, ho]) ?_
    rw [hs']
    exact ⟨.inl trivial, trivial⟩
  obtain ⟨g1, g2⟩ := C138_run X demoMem 2 3 o (by rw [hp]; simp [demoMem]) (by rw [hd]; simp [demoMem])
    (by simp [demoMem]) (by simp [demoMem])
  have h3' : (X.view demoMem).run (.arr (ND.vec (demoMem.at 2))) (.arr (ND.vec (demoMem.at 3))) o = .ok r := h3
  rw [h3'] at g1 g2
  cases hX : X.run demoMem 2 3 o with
  | error e => have := (g1 e).mp hX; simp at this
  | ok t =>
    obtain ⟨h', r'⟩ := t
    obtain ⟨k1, k2, k3, k4, k5, k6, -⟩ := g2 h' r' hX
    simp only [Except.ok.injEq] at k2
    have hpe : r'.performance ≠ [] := by rw [k2] at hpos; exact hpos
    exact ⟨X, h', r', hX, k5 (.inl rfl), (k4 rfl hpe).1, k1⟩

/-- The density array is halved after the construction of the fit: the coefficients after an update sum to half of
`integral_dens`. -/
example : ∃ X h2 c' e' cv', FPIObj.init demoMem 0 1 (.atom (demoS true)) (XR.fin 0) (some (XR.fin 2)) false = .ok X ∧
    X.update (demoMem.set 1 (fins (tab 3 fun i => demoF i / 2))) 2 3 true true = .ok (h2, c', e') ∧
    h2.at c' = fins cv' ∧ cv'.sum = 1 := by
  obtain ⟨X, h0, hp, hd, hm, hs, h2⟩ := demo_obj 2 (by norm_num)
  have hne : ∑ i ∈ range 3, vec [1 / 2, 1, 1 / 2] i * demoF i ≠ 0 := fun h0 => h2.lm_ne (by rw [h0, zero_div])
  have hhalf : ∑ i ∈ range 3, vec [1 / 2, 1, 1 / 2] i * (demoF i / 2) =
      (∑ i ∈ range 3, vec [1 / 2, 1, 1 / 2] i * demoF i) / 2 := by
    rw [Finset.sum_div]; exact Finset.sum_congr rfl fun i _ => by ring
  obtain ⟨h2', c', e', cv', k1, k2, k3⟩ := C138_changed (X := X) (h := demoMem)
    (h1 := demoMem.set 1 (fins (tab 3 fun i => demoF i / 2))) (g := fun i => demoF i / 2)
    (W' := vec [1 / 2, 1, 1 / 2]) h2
    ⟨h2.data.model, by simp [FPIObj.view, hd, Mem.at, demoMem, List.getD],
      by
        have := h2.data.quad
        simpa [FPIObj.view, hp, Mem.at, demoMem, List.getD] using this⟩
    (fun i _ => (half_pos (demoF_pos i)).le) (by rw [hhalf]; exact div_ne_zero hne (by norm_num))
    (by rw [hp]; simp [demoMem]) (by rw [hd]; simp [demoMem]) 2 3 (by simp [demoMem]) (by simp [demoMem]) [1] [1]
    rfl rfl rfl rfl (by simp)
    (by
      intro i hi
      obtain ⟨u1, u2⟩ := demo_unmasked i hi
      have := tiny_pos
      have := demoF_pos i
      exact ⟨u1, lt_of_le_of_lt (by nlinarith) u2⟩) true
  refine ⟨X, h2', c', e', cv', h0, k1, k2, ?_⟩
  rw [k3, hhalf]
  field_simp

/-- An optimiser that overwrites the array it is given with ones and returns that array. -/
def onesInPlace (_ : SProblem) (h : Mem) (x : ℕ) : Mem × Py MRes :=
  (h.set x ((h.at x).map fun _ => XR.fin 1), .ok ⟨x, XR.fin 0, [], true, ""⟩)

theorem onesInPlace_tame : Tame onesInPlace := by
  intro P h x hx
  refine ⟨fun k _ hk => by simp [onesInPlace, Ne.symm hk], ?_⟩
  intro r hr
  simp only [onesInPlace, Except.ok.injEq] at hr
  subst hr
  simp [onesInPlace, hx]

theorem onesInPlace_computes :
    Computes onesInPlace fun P => .ok ⟨P.x0.map fun _ => XR.fin 1, XR.fin 0, [], true, ""⟩ := by
  intro P h x hx h0
  simp [onesInPlace, ← h0, Mem.at, List.getD, hx]

/-- A run with that optimiser: the coefficients that it was given are still `7`. -/
example : ∃ h' r, (demoSFit .sq).runM onesInPlace [fins [7], fins [1]] 0 1 ⟨true, false, 100, XR.fin 0, false⟩ =
    (h', .ok r) ∧ h'[0]? = some (fins [7]) ∧ h'.at r.coeffs = fins [1] ∧ r.exps = 1 := by
  obtain ⟨h1, h2, h3⟩ := C138_scipy (demoSFit .sq) onesInPlace _ onesInPlace_tame onesInPlace_computes
    [fins [7], fins [1]] 0 1 ⟨true, false, 100, XR.fin 0, false⟩ (by simp) (by simp)
  obtain ⟨p, hg⟩ : ∃ p, (demoSFit .sq).goodness (fins [1]) (fins [1]) = .ok p := by
    obtain ⟨M, kl, hg, -⟩ := goodness_fins (demoSFit_data .sq) (by norm_num) [1] [1] rfl rfl (by simp)
    exact ⟨_, hg⟩
  have hrun : (demoSFit .sq).run (fun P => .ok ⟨P.x0.map fun _ => XR.fin 1, XR.fin 0, [], true, ""⟩)
      (fins [7]) (fins [1]) ⟨true, false, 100, XR.fin 0, false⟩ =
      .ok ⟨fins [1], fins [1], XR.fin 0, true, "", [], p⟩ := by
    unfold SFit.run
    have hp : (demoSFit .sq).problem (fins [7]) (fins [1]) ⟨true, false, 100, XR.fin 0, false⟩ = .ok _ := rfl
    rw [hp]
    have : (fins [7]).map (fun _ => XR.fin 1) = fins [1] := rfl
    simp only [Bool.and_false, Bool.false_eq_true, if_false, if_true, this]
    rw [hg]
  have hrun' : (demoSFit .sq).run (fun P => .ok ⟨P.x0.map fun _ => XR.fin 1, XR.fin 0, [], true, ""⟩)
      (Mem.at [fins [7], fins [1]] 0) (Mem.at [fins [7], fins [1]] 1) ⟨true, false, 100, XR.fin 0, false⟩ =
      .ok ⟨fins [1], fins [1], XR.fin 0, true, "", [], p⟩ := hrun
  rw [hrun'] at h2 h3
  cases hr : (demoSFit .sq).runM onesInPlace [fins [7], fins [1]] 0 1 ⟨true, false, 100, XR.fin 0, false⟩ with
  | mk h' res =>
    rw [hr] at h1 h2 h3
    cases res with
    | error e => have := (h2 e).mp rfl; simp at this
    | ok r =>
      obtain ⟨k1, -, k3, -⟩ := h3 r rfl
      simp only [Except.ok.injEq, SResult.mk.injEq] at k1
      exact ⟨h', r, rfl, h1 0 (by simp), k1.1.symm, k3⟩

/-- Two of three exponents are similar: the coefficients are added up in a copy. -/
example : ∃ h' a b, removeRedundanciesM [fins [3, 4, 5], fins [1, 1.0005, 2]] 0 1 (XR.fin 1e-3) = (h', a, b) ∧
    (h'.at a).sum = XR.fin 12 ∧ h'[0]? = some (fins [3, 4, 5]) := by
  obtain ⟨h', a, b, h1, h2, h3, -⟩ := C138_redundancies [fins [3, 4, 5], fins [1, 1.0005, 2]] 0 1 (XR.fin 1e-3)
    (by simp) (by simp)
  refine ⟨h', a, b, h1, ?_, h2 0 (by simp)⟩
  have h4 : h'.at a = (removeRedundancies (fins [3, 4, 5]) (fins [1, 1.0005, 2]) (XR.fin 1e-3)).1 := by
    have := congrArg Prod.fst h3
    exact this
  rw [h4, C50_real_partial [3, 4, 5] [1, 1.0005, 2] 1e-3 rfl]
  · norm_num
  · intro a ha b hb c hc
    simp only [List.mem_cons, List.not_mem_nil, or_false] at ha hb hc
    rcases ha with rfl | rfl | rfl <;> rcases hb with rfl | rfl | rfl <;>
      rcases hc with rfl | rfl | rfl <;> norm_num [abs_lt]

end
end BFit
