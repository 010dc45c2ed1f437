import Verif.Props.GreedyGuess
import Verif.Props.GreedyErr

/-! Property C96: greedy fits of good data always return, with parameters that make sense. -/

namespace BFit

open Real Finset

noncomputable section

/-- A vector of `ns + np` coefficients and as many exponents, all with the property `G`. -/
structure GoodVec (G : XR → Prop) (ns np : ℕ) (p : List XR) : Prop where
  len : p.length = 2 * (ns + np)
  all : ∀ y ∈ p, G y

/-- A property of numbers kept by the operations that make guesses. -/
structure GuessClosed (G : XR → Prop) : Prop where
  pos : ∀ a : ℝ, 0 < a → G (XR.fin a)
  div : ∀ (y : XR) (k : ℝ), 0 < k → G y → G (y / XR.fin k)
  mul : ∀ (y : XR) (k : ℝ), 0 < k → G y → G (y * XR.fin k)
  mid : ∀ a b : XR, G a → G b → G ((a + b) / XR.fin 2)

/-- Positive finite numbers. -/
def PosNum (y : XR) : Prop := ∃ a : ℝ, 0 < a ∧ y = XR.fin a

/-- Finite numbers. -/
def FinNum (y : XR) : Prop := ∃ a : ℝ, y = XR.fin a

theorem posNum_closed : GuessClosed PosNum where
  pos a ha := ⟨a, ha, rfl⟩
  div := by
    rintro _ k hk ⟨a, ha, rfl⟩
    exact ⟨a / k, div_pos ha hk, XR.div_fin_of_ne _ hk.ne'⟩
  mul := by
    rintro _ k hk ⟨a, ha, rfl⟩
    exact ⟨a * k, mul_pos ha hk, by simp⟩
  mid := by
    rintro _ _ ⟨a, ha, rfl⟩ ⟨b, hb, rfl⟩
    exact ⟨(a + b) / 2, by positivity, by rw [XR.add_fin, XR.div_fin_of_ne _ two_ne_zero]⟩

theorem finNum_closed : GuessClosed FinNum where
  pos a _ := ⟨a, rfl⟩
  div := by
    rintro _ k hk ⟨a, rfl⟩
    exact ⟨a / k, XR.div_fin_of_ne _ hk.ne'⟩
  mul := by
    rintro _ k hk ⟨a, rfl⟩
    exact ⟨a * k, by simp⟩
  mid := by
    rintro _ _ ⟨a, rfl⟩ ⟨b, rfl⟩
    exact ⟨(a + b) / 2, by rw [XR.add_fin, XR.div_fin_of_ne _ two_ne_zero]⟩

theorem getD_all {G : XR → Prop} {l : List XR} (h : ∀ y ∈ l, G y) {i : ℕ} (hi : i < l.length) :
    G (l.getD i 0) := by
  rw [List.getD_eq_getElem?_getD, List.getElem?_eq_getElem hi]
  exact h _ (List.getElem_mem hi)

theorem newExponent_good {G : XR → Prop} (hG : GuessClosed G) {k : ℝ} (hk : 0 < k) {es : List XR}
    (he : ∀ y ∈ es, G y) (hne : es ≠ []) {i : ℕ} (hi : i ≤ es.length) : G (newExponent (XR.fin k) es i) := by
  have hn : 0 < es.length := List.length_pos_of_ne_nil hne
  unfold newExponent
  split
  · exact hG.div _ _ hk (getD_all he hn)
  · split
    · exact hG.mul _ _ hk (getD_all he (by omega))
    · exact hG.mid _ _ (getD_all he (by omega)) (getD_all he (by omega))

theorem one_good {G : XR → Prop} (hG : GuessClosed G) {k : ℝ} (hk : 0 < k) {cs es x : List XR}
    (h : cs.length = es.length) (hne : es ≠ []) (hc : ∀ y ∈ cs, G y) (he : ∀ y ∈ es, G y)
    (hx : x ∈ getNextChoices (XR.fin k) cs es (XR.fin 100)) : ∀ y ∈ x, G y := by
  rw [C46_next_choices _ _ _ _ h hne] at hx
  obtain ⟨i, hi, rfl⟩ := List.mem_map.mp hx
  have hi := List.mem_range.mp hi
  intro y hy
  rcases List.mem_append.mp hy with hy | hy
  · rcases List.eq_or_mem_of_mem_insertIdx hy with rfl | hy
    · exact hG.pos _ (by norm_num)
    · exact hc y hy
  · rcases List.eq_or_mem_of_mem_insertIdx hy with rfl | hy
    · exact newExponent_good hG hk he hne (by omega)
    · exact he y hy

theorem two_good {G : XR → Prop} (hG : GuessClosed G) {k : ℝ} (hk : 0 < k) {cs es x : List XR}
    (h : cs.length = es.length) (hne : es ≠ []) (hc : ∀ y ∈ cs, G y) (he : ∀ y ∈ es, G y)
    (hx : x ∈ getTwoNextChoices (XR.fin k) cs es (XR.fin 100)) : ∀ y ∈ x, G y := by
  obtain ⟨c₁, e₁, c, e, rfl, -, -, -, -, h1, h2, h3⟩ := C47_guess _ _ _ _ h hne x hx
  have g1 := one_good hG hk h hne hc he h1
  have hl := (C46_sizes _ _ _ _ h hne).2 _ h1
  rw [List.length_append] at hl
  refine one_good hG hk h2 ?_ (fun y hy => g1 y (List.mem_append_left _ hy))
    (fun y hy => g1 y (List.mem_append_right _ hy)) h3
  exact List.ne_nil_of_length_pos (by omega)

theorem next_good {G : XR → Prop} (hG : GuessClosed G) {k : ℝ} (hk : 0 < k) {cs es x : List XR} {c : Choice}
    (h : cs.length = es.length) (hne : es ≠ []) (hc : ∀ y ∈ cs, G y) (he : ∀ y ∈ es, G y)
    (hx : TypeGuess c (XR.fin k) cs es x) : ∀ y ∈ x, G y := by
  cases c with
  | pickOne => exact one_good hG hk h hne hc he hx
  | pickTwo => exact two_good hG hk h hne hc he hx
  | pickTwoLoseOne =>
    obtain ⟨two, h1, -, h3⟩ := C48_pick_two_lose_one (XR.fin k) (XR.fin 100) cs es h hne
    have hx : x ∈ pickTwoLoseOne (XR.fin k) cs es (XR.fin 100) := hx
    rw [h3] at hx
    obtain ⟨p, hp, hx⟩ := List.mem_flatMap.mp hx
    obtain ⟨j, -, rfl⟩ := List.mem_map.mp hx
    have hg := two_good hG hk h hne hc he (x := p.1 ++ p.2) (by rw [h1]; exact List.mem_map.mpr ⟨p, hp, rfl⟩)
    intro y hy
    rcases List.mem_append.mp hy with hy | hy
    · exact hg y (List.mem_append_left _ (List.mem_of_mem_eraseIdx hy))
    · exact hg y (List.mem_append_right _ (List.mem_of_mem_eraseIdx hy))

/-- An interface on which every optimisation of a good vector returns a good vector with a finite
objective value, small enough to be considered after the quick optimisation, as long as there are at most
`B` functions. -/
structure GoodEnv (E : GEnv) (G : XR → Prop) (Q : ℕ → ℕ → List XR → Prop) (B : ℤ) : Prop where
  closed : GuessClosed G
  local_ : ∀ t i ns np p, 1 ≤ ns → ((ns + np : ℕ) : ℤ) ≤ B → GoodVec G ns np p → ∃ q v, E.optLocal t i ns np p = .ok q ∧
    GoodVec G ns np q ∧ E.obj ns np q = .ok (XR.fin v) ∧ v < 1e10
  global : ∀ t ns np p, 1 ≤ ns → ((ns + np : ℕ) : ℤ) ≤ B → GoodVec G ns np p → ∃ q, E.optGlobal t ns np p = .ok q ∧
    GoodVec G ns np q ∧ Q ns np q
  obj : ∀ ns np p, 1 ≤ ns → GoodVec G ns np p → ∃ v, E.obj ns np p = .ok (XR.fin v)
  gof : ∀ ns np p, 1 ≤ ns → GoodVec G ns np p → ∃ e, E.gof ns np p = .ok e
  rnd : ∀ t w j, 0 < E.rnd t w j

theorem sGuess_good {E : GEnv} {G : XR → Prop} {Q : ℕ → ℕ → List XR → Prop} {B : ℤ} (hE : GoodEnv E G Q B) {k : ℝ}
    (hk : 0 < k) {ns np : ℕ} (hs : 1 ≤ ns) {p g : List XR} (hp : GoodVec G ns np p)
    (hg : SGuess E (XR.fin k) ns np p g) : GoodVec G (ns + addedFuncs E.choice) np g := by
  obtain ⟨sc, pc, se, pe, c, e, rfl, h1, h2, h3, h4, h5, h6, h7, rfl⟩ := hg
  have hall := hp.all
  simp only [List.mem_append] at hall
  have hn := next_good hE.closed hk (h1.trans h3.symm) (List.ne_nil_of_length_pos (by omega))
    (fun y hy => hall y (.inl hy)) (fun y hy => hall y (.inr (.inr (.inl hy)))) h5
  simp only [List.mem_append] at hn
  constructor
  · simp only [List.length_append]
    omega
  · intro y hy
    simp only [List.mem_append] at hy
    rcases hy with hy | hy | hy | hy
    · exact hn y (.inl hy)
    · exact hall y (.inr (.inl hy))
    · exact hn y (.inr hy)
    · exact hall y (.inr (.inr (.inr hy)))

theorem pGuess_good {E : GEnv} {G : XR → Prop} {Q : ℕ → ℕ → List XR → Prop} {B : ℤ} (hE : GoodEnv E G Q B) {k : ℝ}
    (hk : 0 < k) {t ns np : ℕ} {p g : List XR} (hp : GoodVec G ns np p)
    (hg : PGuess E (XR.fin k) t ns np p g) : GoodVec G ns (np + addedFuncs E.choice) g := by
  obtain ⟨sc, pc, se, pe, c, e, rfl, h1, h2, h3, h4, h5, h6, h7, rfl⟩ := hg
  have hall := hp.all
  simp only [List.mem_append] at hall
  have hn : ∀ y ∈ c ++ e, G y := by
    split at h5
    · obtain ⟨w, m, b, hw, hx⟩ := h5
      rw [hx]
      intro y hy
      obtain ⟨j, -, rfl⟩ := List.mem_map.mp hy
      refine hE.closed.pos _ ?_
      have hr := hE.rnd t w j
      simp only [Prod.mk.injEq] at hw
      rcases hw with ⟨-, rfl, rfl⟩ | ⟨-, rfl, rfl⟩ | ⟨-, rfl, rfl⟩ <;> positivity
    · exact next_good hE.closed hk (h2.trans h4.symm) (List.ne_nil_of_length_pos (by omega))
        (fun y hy => hall y (.inr (.inl hy))) (fun y hy => hall y (.inr (.inr (.inr hy)))) h5
  simp only [List.mem_append] at hn
  constructor
  · simp only [List.length_append]
    omega
  · intro y hy
    simp only [List.mem_append] at hy
    rcases hy with hy | hy | hy | hy
    · exact hall y (.inl hy)
    · exact hn y (.inl hy)
    · exact hall y (.inr (.inr (.inl hy)))
    · exact hn y (.inr hy)

/-- What holds at the start of every round. -/
structure GoodState (G : XR → Prop) (Q : ℕ → ℕ → List XR → Prop) (s : GState) : Prop where
  hs : 1 ≤ s.numS
  vec : GoodVec G s.numS s.numP s.gparams
  modelS : s.modelS = s.numS
  modelP : s.modelP = s.numP
  factor : ∃ k : ℝ, 0 < k ∧ s.factor = XR.fin k
  best : ∃ b : ℝ, s.best = XR.fin b
  prev : s.prev = XR.pinf ∨ ∃ b : ℝ, s.prev = XR.fin b
  last : s.paramsIter.getLast? = some s.gparams
  iter : ∀ p ∈ s.paramsIter, ∃ ns np, 1 ≤ ns ∧ GoodVec G ns np p ∧ Q ns np p
  redum : s.redum ≤ 5
  count : s.numbFuncs = ((s.numS + s.numP : ℕ) : ℤ)

theorem step_good {E : GEnv} {G : XR → Prop} {Q : ℕ → ℕ → List XR → Prop} {o : GOpts}
    (hE : GoodEnv E G Q (o.maxFuncs + 1)) (hx : o.extra = none) {k0 : ℝ} (hk0 : 0 < k0) {s : GState} (h : GoodState G Q s)
    (hred : s.redum < 5) (hmax : s.numbFuncs ≤ o.maxFuncs - 1) :
    ∃ s', E.step o (XR.fin k0) s = .ok s' ∧ GoodState G Q s' := by
  obtain ⟨k, hk, hfac⟩ := h.factor
  obtain ⟨b, hb⟩ := h.best
  set nS := (E.choicesS s).length with hnS
  set nP := (E.choicesP s).length with hnP
  have hgood : ∀ i < nS + nP, GoodVec G (if i < nS then s.numS + E.choice.inc else s.numS)
      (if i < nS then s.numP else s.numP + E.choice.inc) ((E.choicesS s ++ E.choicesP s).getD i []) := by
    intro i hi
    rw [inc_eq]
    by_cases hiS : i < nS
    · simp only [hiS, if_true]
      rw [List.getD_eq_getElem?_getD, List.getElem?_append_left hiS, List.getElem?_eq_getElem hiS]
      refine sGuess_good hE hk h.hs h.vec ?_
      rw [← hfac]
      exact (mem_choicesS h.vec.len h.hs _).mp (List.getElem_mem hiS)
    · simp only [hiS, if_false]
      have hiP : i - nS < nP := by omega
      rw [List.getD_eq_getElem?_getD, List.getElem?_append_right (by omega), List.getElem?_eq_getElem hiP]
      refine pGuess_good hE hk (t := s.round) h.vec ?_
      rw [← hfac]
      exact (mem_choicesP h.vec.len _).mp (List.getElem_mem hiP)
  have hone : ∀ i, 1 ≤ if i < nS then s.numS + E.choice.inc else s.numS := by
    intro i
    have := h.hs
    split <;> omega
  have hB : ∀ b : Bool, (((if b = true then s.numS + E.choice.inc else s.numS) +
      (if b = true then s.numP else s.numP + E.choice.inc) : ℕ) : ℤ) ≤ o.maxFuncs + 1 := by
    intro b
    have h1 := h.count
    have h2 : E.choice.inc ≤ 2 := by cases E.choice <;> decide
    cases b <;> simp <;> push_cast at h1 <;> omega
  have hBi : ∀ i, (((if i < nS then s.numS + E.choice.inc else s.numS) +
      (if i < nS then s.numP else s.numP + E.choice.inc) : ℕ) : ℤ) ≤ o.maxFuncs + 1 := by
    intro i
    simpa using hB (decide (i < nS))
  have hloc : ∀ i, ∃ lp v, i < nS + nP →
      E.optLocal s.round i (if i < nS then s.numS + E.choice.inc else s.numS)
        (if i < nS then s.numP else s.numP + E.choice.inc) ((E.choicesS s ++ E.choicesP s).getD i []) = .ok lp ∧
      GoodVec G (if i < nS then s.numS + E.choice.inc else s.numS)
        (if i < nS then s.numP else s.numP + E.choice.inc) lp ∧
      E.obj (if i < nS then s.numS + E.choice.inc else s.numS)
        (if i < nS then s.numP else s.numP + E.choice.inc) lp = .ok (XR.fin v) ∧ v < 1e10 := by
    intro i
    by_cases hi : i < nS + nP
    · obtain ⟨q, v, h1⟩ := hE.local_ s.round i _ _ _ (hone i) (hBi i) (hgood i hi)
      exact ⟨q, v, fun _ => h1⟩
    · exact ⟨[], 0, fun h => absurd h hi⟩
  choose lp v hlv using hloc
  have hS0 : 0 < nS := by
    have hl := h.vec.len
    obtain ⟨sc, pc, se, pe, hp, h1, h2, h3, h4⟩ := exists_parts hl
    have hne : se ≠ [] := List.ne_nil_of_length_pos (by have := h.hs; omega)
    have hnx : 0 < (E.choice.next s.factor sc se).length := by
      cases E.choice with
      | pickOne =>
        have := (C46_sizes s.factor (XR.fin 100) sc se (h1.trans h3.symm) hne).1
        simp only [Choice.next]
        omega
      | pickTwo =>
        have := C47_count s.factor (XR.fin 100) sc se (h1.trans h3.symm) hne
        simp only [Choice.next]
        nlinarith
      | pickTwoLoseOne =>
        have := (C48_sizes s.factor (XR.fin 100) sc se (h1.trans h3.symm) hne).1
        simp only [Choice.next]
        nlinarith
    rw [hnS]
    unfold GEnv.choicesS
    rw [hp, split_parts h1 h2 h3]
    simpa using hnx
  unfold GEnv.step GEnv.totalChoices
  rw [hx]
  simp only
  rcases C51_find_best E s.round s.numS s.numP nS nP (E.choicesS s ++ E.choicesP s) lp (fun i => XR.fin (v i))
    (by simp [hnS, hnP]) (fun i hi => (hlv i hi).1) (fun i hi => (hlv i hi).2.2.1) with
    ⟨j, j1, -, -, -, j5⟩ | ⟨hbad, -⟩
  swap
  · exact absurd ((XR.lt_fin _ _).mpr (hlv 0 (by omega)).2.2.2) (hbad 0 (by omega))
  rw [j5]
  simp only
  obtain ⟨isS, hisS⟩ : ∃ b : Bool, b = decide (j < nS) := ⟨_, rfl⟩
  have hiff : j < nS ↔ isS = true := by simp [hisS]
  rw [← hisS]
  obtain ⟨-, j2, -, -⟩ := hlv j j1
  have j3 := hone j
  simp only [hiff] at j2 j3
  clear hisS hiff
  unfold GEnv.finishRound
  simp only
  obtain ⟨q, q1, q2, q3⟩ := hE.global s.round _ _ _ j3 (hB isS) j2
  rw [q1]
  simp only
  obtain ⟨w, hw⟩ := hE.obj _ _ _ j3 q2
  rw [hw]
  simp only
  by_cases hnf : roundFails (if isS = true then s.numS + E.choice.inc else s.numS)
    (if isS = true then s.numP else s.numP + E.choice.inc) q (XR.fin w) s.best
  · rw [if_pos hnf]
    refine ⟨_, rfl, ?_⟩
    have e1 : (if isS = true then (if isS = true then s.numS + E.choice.inc else s.numS) - E.choice.inc
        else if isS = true then s.numS + E.choice.inc else s.numS) = s.numS := by
      cases isS <;> simp
    have e2 : (if isS = true then (if isS = true then s.numP else s.numP + E.choice.inc)
        else (if isS = true then s.numP else s.numP + E.choice.inc) - E.choice.inc) = s.numP := by
      cases isS <;> simp
    refine ⟨?_, ?_, rfl, rfl, ?_, h.best, h.prev, h.last, h.iter, hred, ?_⟩
    · simp only [e1]
      exact h.hs
    · simp only [e1, e2]
      exact h.vec
    · exact ⟨k * 2, by positivity, by simp [hfac]⟩
    · simp only [e1, e2]
      rw [← h.count]
      omega
  · rw [if_neg hnf]
    have hle : XR.fin w ≤ s.best := by
      rw [hb]
      unfold roundFails at hnf
      simp only [not_or, hb, XR.lt_fin, not_lt] at hnf
      exact (XR.le_fin _ _).mpr hnf.2.2
    rw [if_pos hle]
    obtain ⟨err, herr⟩ := hE.gof _ _ _ j3 q2
    rw [herr]
    refine ⟨_, rfl, ⟨j3, q2, rfl, rfl, ⟨k0, hk0, rfl⟩, ⟨w, rfl⟩, .inr h.best, by simp, ?_, Nat.zero_le _, ?_⟩⟩
    swap
    · have h1 := h.count
      push_cast at h1
      cases isS <;> simp <;> omega
    intro p hp
    simp only [List.mem_append, List.mem_singleton] at hp
    rcases hp with hp | rfl
    · exact h.iter p hp
    · exact ⟨_, _, j3, q2, q3⟩

theorem rounds_good {E : GEnv} {G : XR → Prop} {Q : ℕ → ℕ → List XR → Prop} {o : GOpts}
    (hE : GoodEnv E G Q (o.maxFuncs + 1)) (hx : o.extra = none) {k0 : ℝ} (hk0 : 0 < k0) {s s' : GState} (h : GoodState G Q s) {n : ℕ}
    (hr : Rounds E o (XR.fin k0) s n s') : GoodState G Q s' := by
  induction hr with
  | refl => exact h
  | step _ hc hst ih =>
    obtain ⟨s1, h1, h2⟩ := step_good hE hx hk0 ih hc.2.1 hc.1
    rw [hst] at h1
    injection h1 with h1
    rw [h1]
    exact h2

/-- What a run on good data returns. -/
structure GoodResult (G : XR → Prop) (Q : ℕ → ℕ → List XR → Prop) (r : GResult) : Prop where
  hs : 1 ≤ r.numS
  clen : r.coeffs.length = r.numS + r.numP
  elen : r.exps.length = r.numS + r.numP
  coeffs : ∀ y ∈ r.coeffs, G y
  exps : ∀ y ∈ r.exps, G y
  fun_ : ∃ v : ℝ, r.fun_ = XR.fin v
  iter : ∀ p ∈ r.parametersIteration, ∃ ns np, 1 ≤ ns ∧ GoodVec G ns np p ∧ Q ns np p

theorem run_good {E : GEnv} {G : XR → Prop} {Q : ℕ → ℕ → List XR → Prop} {o : GOpts}
    (hE : GoodEnv E G Q (o.maxFuncs + 1)) {g : List XR}
    (hg : E.oneFun 1 0 = .ok g) (hgood : GoodVec G 1 0 g) (hq : Q 1 0 g) {k d : ℝ} (hk : 0 < k)
    (hx : o.extra = none) (hd : o.dThr = XR.fin d) :
    ∃ r ob', E.run GObj.fresh (.float (XR.fin k)) o = .ok (r, ob') ∧ GoodResult G Q r := by
  obtain ⟨err, herr⟩ := hE.gof 1 0 g le_rfl hgood
  obtain ⟨v, hv⟩ := hE.obj 1 0 g le_rfl hgood
  unfold GEnv.run
  simp only
  rw [if_neg (by simpa using hk)]
  obtain ⟨s0, hst, hinv, hn0, hr0⟩ : ∃ s0, E.start GObj.fresh (XR.fin k) = .ok s0 ∧ GoodState G Q s0 ∧
      s0.numbFuncs = 1 ∧ s0.redum = 0 := by
    unfold GEnv.start
    simp only [GObj.fresh, hg, herr, hv, List.nil_append]
    refine ⟨_, rfl, ⟨le_rfl, hgood, rfl, rfl, ⟨k, hk, rfl⟩, ⟨v, rfl⟩, .inl rfl, rfl, ?_, Nat.zero_le _, rfl⟩, rfl, rfl⟩
    intro p hp
    simp only [List.mem_singleton] at hp
    subst hp
    exact ⟨1, 0, le_rfl, hgood, hq⟩
  rw [hst]
  simp only
  have hm : 5 * o.maxFuncs ≤ 5 * s0.numbFuncs + s0.redum + (5 * (o.maxFuncs - 1).toNat : ℕ) := by
    rw [hn0, hr0]
    push_cast
    omega
  cases hl : E.loop o (XR.fin k) (5 * (o.maxFuncs - 1).toNat) s0 with
  | error e =>
    obtain ⟨n, s', h1, h2, h3⟩ := (loop_error_iff _ s0 e hm).mp hl
    obtain ⟨s1, h4, -⟩ := step_good hE hx hk (rounds_good hE hx hk hinv h1) h2.2.1 h2.1
    rw [h3] at h4
    simp at h4
  | ok s =>
    obtain ⟨n, h1, h2⟩ := (loop_ok_iff _ s0 s hm).mp hl
    have hi := rounds_good hE hx hk hinv h1
    simp only
    have hinfo : ∃ info, (if s.redum = 5 then (.ok ExitInfo.notBestChoice : Py ExitInfo)
        else finalExitInfo s.numbFuncs o.maxFuncs s.best s.prev o.dThr) = .ok info := by
      split
      · exact ⟨_, rfl⟩
      · next h5 =>
        unfold finalExitInfo
        split
        · exact ⟨_, rfl⟩
        · next hn =>
          have hred := hi.redum
          have hnd : ¬ o.dThr ≤ (s.best - s.prev).abs := by
            intro hle
            exact h2 ⟨by omega, by omega, hle⟩
          rw [if_pos]
          · exact ⟨_, rfl⟩
          · obtain ⟨b, hb⟩ := hi.best
            rw [hd, hb] at hnd ⊢
            rcases hi.prev with hp | ⟨a, hp⟩
            · rw [hp] at hnd
              exact absurd trivial hnd
            · rw [hp] at hnd ⊢
              simp only [XR.sub_fin, XR.abs_fin, XR.le_fin, not_le] at hnd ⊢
              exact (XR.lt_fin _ _).mpr hnd
    obtain ⟨info, hinfo⟩ := hinfo
    have hlast : s.paramsIter.getLastD [] = s.gparams := by
      rw [List.getLastD_eq_getLast?, hi.last]
      rfl
    obtain ⟨w, hw⟩ := hE.obj _ _ _ hi.hs hi.vec
    unfold GEnv.finish
    simp only
    rw [hinfo, hlast]
    simp only
    rw [hi.modelS, hi.modelP, hw]
    simp only
    refine ⟨_, _, rfl, ?_⟩
    obtain ⟨sc, pc, se, pe, hp, l1, l2, l3, l4⟩ := exists_parts hi.vec.len
    have hall := hi.vec.all
    rw [hp]
    rw [hp] at hall
    simp only [List.mem_append] at hall
    rw [split_parts l1 l2 l3]
    refine ⟨hi.hs, by simp [l1, l2], by simp [l3, l4], ?_, ?_, ⟨w, rfl⟩, hi.iter⟩
    · intro y hy
      rcases List.mem_append.mp hy with hy | hy
      · exact hall y (.inl hy)
      · exact hall y (.inr (.inl hy))
    · intro y hy
      rcases List.mem_append.mp hy with hy | hy
      · exact hall y (.inr (.inr (.inl hy)))
      · exact hall y (.inr (.inr (.inr hy)))

/-! ### GreedyKLFPI -/

/-- Quadrature weights of a fit on a radial grid, spherical or not. -/
def radW (x : List ℝ) (sph : Bool) (i : ℕ) : ℝ := if sph then sphW x i else vec (trapW x) i

theorem radW_quad (x : List ℝ) (sph : Bool) : Quad (.radial ⟨fins x⟩) sph x.length (radW x sph) := by
  cases sph with
  | true => exact quad_spherical x
  | false =>
    have := quad_plain (hasWeights_radial x)
    rw [trapW_length] at this
    exact this

theorem radW_nonneg {x : List ℝ} (hx : x.Pairwise (· ≤ ·)) (sph : Bool) (i : ℕ) : 0 ≤ radW x sph i := by
  cases sph with
  | true => exact spherical_weights_nonneg hx i
  | false => exact vec_nonneg (trapW_nonneg x hx) i

theorem radW_pos {x : List ℝ} {i : ℕ} (h1 : 0 < vec (trapW x) i) (h2 : vec x i ≠ 0) (sph : Bool) :
    0 < radW x sph i := by
  cases sph with
  | true => exact mul_pos h1 (by have := pow_pos_of_ne h2; positivity)
  | false => exact h1

/-- The constructor does the same for every strategy. -/
theorem klInit_choice {points density : List XR} {mask : XR} {T : Option XR} {sph : Bool} {F : FPI}
    (h : klInit points density "pick-one" mask T sph = .ok (F, .pickOne)) {name : String} {c : Choice}
    (hc : Choice.parse name = .ok c) : klInit points density name mask T sph = .ok (F, c) := by
  unfold klInit at h ⊢
  split at h
  · simp at h
  split at h
  · simp at h
  rw [choice_pickOne] at h
  simp only [Except.ok.injEq, Prod.mk.injEq, and_true] at h
  simp only [hc, h]

theorem goodVec_pos {ns np : ℕ} {p : List XR} (h : GoodVec PosNum ns np p) :
    ∃ c e : List ℝ, p = fins c ++ fins e ∧ c.length = ns + np ∧ e.length = ns + np ∧ (∀ a ∈ c, 0 < a) ∧
      ∀ a ∈ e, 0 < a := by
  have key : ∀ l : List XR, (∀ y ∈ l, PosNum y) → ∃ c : List ℝ, l = fins c ∧ ∀ a ∈ c, 0 < a := by
    intro l hl
    induction l with
    | nil => exact ⟨[], rfl, by simp⟩
    | cons y l ih =>
      obtain ⟨c, rfl, hc⟩ := ih fun y hy => hl y (List.mem_cons_of_mem _ hy)
      obtain ⟨a, ha, rfl⟩ := hl y List.mem_cons_self
      exact ⟨a :: c, rfl, by simpa using ⟨ha, hc⟩⟩
  obtain ⟨q, rfl, hq⟩ := key p h.all
  have hl := h.len
  rw [fins_length] at hl
  refine ⟨q.take (ns + np), q.drop (ns + np), ?_, ?_, ?_, fun a ha => hq a (List.mem_of_mem_take ha),
    fun a ha => hq a (List.mem_of_mem_drop ha)⟩
  · rw [← List.map_append, List.take_append_drop]
  · rw [List.length_take]
    omega
  · rw [List.length_drop]
    omega

theorem pos_goodVec {ns np : ℕ} {c e : List ℝ} (hc : c.length = ns + np) (he : e.length = ns + np)
    (hcp : ∀ a ∈ c, 0 < a) (hep : ∀ a ∈ e, 0 < a) : GoodVec PosNum ns np (fins c ++ fins e) := by
  constructor
  · rw [List.length_append, fins_length, fins_length]
    omega
  · intro y hy
    rcases List.mem_append.mp hy with hy | hy
    · obtain ⟨a, ha, rfl⟩ := List.mem_map.mp hy
      exact ⟨a, hcp a ha, rfl⟩
    · obtain ⟨a, ha, rfl⟩ := List.mem_map.mp hy
      exact ⟨a, hep a ha, rfl⟩

theorem halves {c e : List XR} (h : c.length = e.length) : firstHalf (c ++ e) = c ∧ secondHalf (c ++ e) = e := by
  simp only [firstHalf, secondHalf, List.length_append, ← h, ← two_mul, Nat.mul_div_cancel_left _ two_pos]
  simp

/-- The Kullback-Leibler value is below 1022 times the integral of the density: points where the ratio is
larger are masked. -/
theorem klTotal_lt {S : Shape} {N : ℕ} {W f : ℕ → ℝ} {μ : ℝ} {c e : List ℝ} (hW : ∀ i < N, 0 ≤ W i)
    (hf : ∀ i < N, 0 < f i) : klTotal S N W f μ c e ≤ 1022 * ∑ i ∈ range N, W i * f i := by
  unfold klTotal
  rw [Finset.mul_sum]
  refine Finset.sum_le_sum fun i hi => ?_
  have hi := mem_range.mp hi
  have hfi := hf i hi
  suffices h : klVal μ (f i) (S.dens true (vec c) (vec e) i) ≤ 1022 * f i by
    have := mul_le_mul_of_nonneg_left h (hW i hi)
    linarith
  by_cases hu : Unmasked μ (f i) (S.dens true (vec c) (vec e) i)
  · rw [klVal_unmasked hu]
    unfold klInt
    set g := S.dens true (vec c) (vec e) i
    have hg : 0 < g := unmasked_pos hfi.le hu
    have h1 : f i / g ≤ 2 ^ 1022 := by
      rw [div_le_iff₀ hg]
      have := hu.2
      have ht : tiny * 2 ^ 1022 = 1 := by
        unfold tiny
        rw [zpow_neg, ← zpow_natCast]
        exact inv_mul_cancel₀ (zpow_ne_zero _ two_ne_zero)
      have h2 : f i * tiny * 2 ^ 1022 < g * 2 ^ 1022 := mul_lt_mul_of_pos_right this (by positivity)
      rw [mul_assoc, ht, mul_one] at h2
      linarith
    have h2 : log (f i / g) ≤ 1022 := by
      calc log (f i / g) ≤ log (2 ^ 1022) := log_le_log (div_pos hfi hg) h1
        _ = 1022 * log 2 := by rw [log_pow]; norm_num
        _ ≤ 1022 * 1 := by
          have := log_le_sub_one_of_pos two_pos
          linarith
        _ = 1022 := mul_one _
    nlinarith
  · rw [klVal_masked hu]
    positivity

/-- A run with finite thresholds and a positive iteration limit makes at least one update. -/
theorem run_updates {F : FPI} {c0 e0 : ND XR} {o : FPIOpts} {r : FPIResult}
    (h : F.run (.arr c0) (.arr e0) o = .ok r) (hm : 1 ≤ o.maxiter) {a b : ℝ} (he : o.eThr = XR.fin a)
    (hd : o.dThr = XR.fin b) : r.performance ≠ [] := by
  unfold FPI.run at h
  simp only at h
  split at h
  · simp [raise] at h
  split at h
  · simp [raise] at h
  split at h
  · simp at h
  rename_i s hs
  simp only [Except.ok.injEq] at h
  subst h
  obtain ⟨k, tr, new, -, h2, h3, -, -, -, -, h4, -, h5, -⟩ := loop_trace F o _ _ _ hs
  simp only
  intro hnil
  rw [hnil] at h3
  have hk : k = 0 := by
    have := congrArg List.length h3
    simp only [List.length_nil, List.nil_append] at this
    omega
  refine h4 (by omega) ?_
  rw [h5 hk]
  unfold FPIState.notConverged
  rw [he, hd]
  exact ⟨.inl trivial, trivial⟩

/-- A fixed-point run from positive parameters: it returns positive parameters; if it makes an update of the
coefficients of a density above the mask, they sum to at most the target. -/
theorem fpi_run_pos {F : FPI} {S : Shape} {N : ℕ} {W f : ℕ → ℝ} {μ T : ℝ}
    (h : IsFPI F true S N W f μ T) (hW : ∀ i < N, 0 ≤ W i) (hT : 0 < T) (hs : S.Sees N W f) (o : FPIOpts)
    (huc : o.optCoeffs = true ∨ o.optExpons = true) (c e : List ℝ) (hc : c.length = S.nb) (he : e.length = S.nb)
    (hcp : ∀ a ∈ c, 0 < a) (hep : ∀ a ∈ e, 0 < a) :
    ∃ r c' e', F.run (.arr (ND.vec (fins c))) (.arr (ND.vec (fins e))) o = .ok r ∧ r.coeffs = fins c' ∧
      r.exps = fins e' ∧ c'.length = S.nb ∧ e'.length = S.nb ∧ (∀ a ∈ c', 0 < a) ∧ (∀ a ∈ e', 0 < a) ∧
      (o.optCoeffs = true → 1 ≤ o.maxiter → (∃ a : ℝ, o.eThr = XR.fin a) → (∃ a : ℝ, o.dThr = XR.fin a) →
        (∀ i < N, μ ≤ f i) → c'.sum ≤ T) := by
  obtain ⟨r, n, cs, es, h1, h2, h3, h4⟩ := C39_total h hW hT hs o huc c e ⟨hc, he, fun a ha => (hcp a ha).le, hep⟩
  have hinj : ∀ l l' : List ℝ, fins l = fins l' → l = l' := fun l l' hl =>
    List.map_injective_iff.mpr (fun a b hab => by simpa using hab) hl
  have h0 := h3.start
  simp only [ND.vec, Prod.mk.injEq] at h0
  have hl := h3.last
  simp only [Prod.mk.injEq] at hl
  have hpos : ∀ j ≤ n, ∀ k < S.nb, 0 < vec (cs j) k := by
    intro j hj
    induction j with
    | zero =>
      rw [hinj _ _ h0.1]
      exact vec_of_mem hc hcp
    | succ j ih =>
      have hg := h4 j (by omega)
      obtain ⟨c1, e1, k1, -, -, -, -, k6⟩ := C36_positive h hW hT hs (cs j) (es j) hg.clen hg.elen hg.cnn hg.epos
        o.optCoeffs o.optExpons huc
      have hst := h3.step j (by omega)
      simp only at hst
      rw [k1] at hst
      simp only [Except.ok.injEq, Prod.mk.injEq] at hst
      rw [← hinj _ _ hst.1]
      exact fun k hk => k6 k hk (ih (by omega) k hk)
  refine ⟨r, cs n, es n, h1, hl.1.symm, hl.2.symm, (h4 n le_rfl).clen, (h4 n le_rfl).elen, ?_, (h4 n le_rfl).epos, ?_⟩
  · intro a ha
    obtain ⟨k, hk, rfl⟩ := List.getElem_of_mem ha
    have := hpos n le_rfl k (by rw [← (h4 n le_rfl).clen]; exact hk)
    rwa [vec, List.getD_eq_getElem?_getD, List.getElem?_eq_getElem hk] at this
  · rintro ho hm ⟨a, ha⟩ ⟨b, hb⟩ hmask
    have hne := run_updates h1 hm ha hb
    have hn : 0 < n := by
      rw [← h3.len]
      exact List.length_pos_of_ne_nil hne
    have hg := h4 (n - 1) (by omega)
    obtain ⟨c1, e1, k1, -, k3⟩ := C35_bound h hW hT hmask (cs (n - 1)) (es (n - 1)) hg o.optExpons
    have hst := h3.step (n - 1) (by omega)
    simp only [ho] at hst
    rw [k1, show n - 1 + 1 = n by omega] at hst
    simp only [Except.ok.injEq, Prod.mk.injEq] at hst
    rw [← hinj _ _ hst.1]
    exact k3

/-- Conditions on the options of the full optimisation under which it updates the coefficients. -/
def UpdatesCoeffs (o : FPIOpts) : Prop :=
  o.optCoeffs = true ∧ 1 ≤ o.maxiter ∧ (∃ a : ℝ, o.eThr = XR.fin a) ∧ ∃ a : ℝ, o.dThr = XR.fin a

/-- **C96** (Kullback-Leibler).  `GreedyKLFPI` on an ascending radial grid with a positive density of integral
at most nine million, any strategy, any positive factor and finite threshold: the constructor and `run` return.
All coefficients and exponents, of the result and of every accepted round, are positive and finite, `fun` is
finite, and if the density is not below the mask the accepted coefficients sum to at most the target. -/
theorem C96_kullback_leibler (x : List ℝ) (hx : x.Pairwise (· ≤ ·)) (f : ℕ → ℝ) (hf : ∀ i < x.length, 0 < f i)
    (hw : ∃ i < x.length, 0 < vec (trapW x) i ∧ vec x i ≠ 0) (μ : ℝ) (T : Option ℝ) (hT : ∀ t, T = some t → 0 < t)
    (sph : Bool) (hI : ∑ i ∈ range x.length, radW x sph i * f i ≤ 9 * 10 ^ 6) (name : String) (c : Choice)
    (hname : Choice.parse name = .ok c) :
    ∃ F, klInit (fins x) (fins (tab x.length f)) name (XR.fin μ) (T.map XR.fin) sph = .ok (F, c) ∧
      ∀ (ol og : FPIOpts) (rnd : ℕ → ℕ → ℕ → ℝ), (ol.optCoeffs = true ∨ ol.optExpons = true) →
        (og.optCoeffs = true ∨ og.optExpons = true) → (∀ t w j, 0 < rnd t w j) →
        ∀ (k d : ℝ) (n : ℤ), 0 < k →
          ∃ r ob', (klEnv F (fins x) c ol og rnd).run GObj.fresh (.float (XR.fin k)) ⟨XR.fin d, n, none⟩ =
              .ok (r, ob') ∧
            GoodResult PosNum (fun ns np p => UpdatesCoeffs og → (∀ i < x.length, μ ≤ f i) →
              ∀ a b : List ℝ, a.length = ns + np → p = fins a ++ fins b →
                a.sum ≤ T.getD (∑ i ∈ range x.length, radW x sph i * f i)) r := by
  obtain ⟨j, hj, hwj, hxj⟩ := hw
  have hn := radW_nonneg hx sph
  have hI0 : 0 < ∑ i ∈ range x.length, radW x sph i * f i :=
    Finset.sum_pos' (fun i hi => mul_nonneg (hn i) (hf i (mem_range.mp hi)).le)
      ⟨j, mem_range.mpr hj, mul_pos (radW_pos hwj hxj sph) (hf j hj)⟩
  have hM : 0 < ∑ i ∈ range x.length, sphW x i * (f i * vec x i ^ 2) := by
    have h1 : ∀ i, 0 ≤ sphW x i := spherical_weights_nonneg hx
    exact Finset.sum_pos' (fun i hi => mul_nonneg (h1 i) (mul_nonneg (hf i (mem_range.mp hi)).le (sq_nonneg _)))
      ⟨j, mem_range.mpr hj, mul_pos (radW_pos hwj hxj true) (mul_pos (hf j hj) (pow_pos_of_ne hxj))⟩
  obtain ⟨F, h1, h2, h3⟩ := klInit_data x f (fun i hi => (hf i hi).le) μ T sph (radW x sph) (radW_quad x sph)
    hI0.ne' (by rintro rfl; exact absurd (hT 0 rfl) (lt_irrefl _))
  have h1' := klInit_choice h1 hname
  refine ⟨F, h1', ?_⟩
  intro ol og rnd hol hog hrnd k d n hk
  set t0 := T.getD (∑ i ∈ range x.length, radW x sph i * f i) with ht0
  have ht : 0 < t0 := by
    cases T with
    | none => exact hI0
    | some t => exact hT t rfl
  obtain ⟨m, hm1, hm2⟩ := klInit_fields h1
  rw [greedy_atom] at hm2
  injection hm2 with hm2
  have hF : ∀ ns np, 1 ≤ ns → IsFPI (F.withCounts ns np) true (atomShape (x.map fun r => |r|) ns np) x.length
      (radW x sph) f μ t0 := by
    intro ns np hns
    have hm := atom_isModel
      (m := ⟨.one (fins x), [XR.fin 0], fins (x.map fun r => |r|), ns, np, true⟩)
      (rs := x.map fun r => |r|) (ns := ns) (np := np) ⟨rfl, rfl, rfl⟩ (by omega)
    rw [List.length_map] at hm
    have hm' : IsModel (F.withCounts ns np).model true (atomShape (x.map fun r => |r|) ns np) x.length := by
      simpa [FPI.withCounts, hm1, ← hm2, GModel.withCounts] using hm
    exact ⟨⟨hm', h3.data.dens, h3.data.quad⟩, h3.f_nonneg, h3.mask, h3.target, h3.lm, h3.lm_ne⟩
  have hsees : ∀ ns np, (atomShape (x.map fun r => |r|) ns np).Sees x.length (radW x sph) f := by
    intro ns np k _
    refine ⟨j, hj, radW_pos hwj hxj sph, hf j hj, ?_⟩
    show vec (x.map fun r => |r|) j ≠ 0
    intro h0
    have := vec_abs_sq x j
    rw [h0] at this
    exact hxj (by simpa using this.symm)
  have hnn : ∀ i < x.length, 0 ≤ radW x sph i := fun i _ => hn i
  have hgoodness : ∀ ns np, 1 ≤ ns → ∀ c e : List ℝ, c.length = ns + np → e.length = ns + np → (∀ a ∈ c, 0 < a) →
      (∀ a ∈ e, 0 < a) → ∃ p, (F.withCounts ns np).goodness (fins c) (fins e) = .ok p ∧
        p.kl = XR.fin (klTotal (atomShape (x.map fun r => |r|) ns np) x.length (radW x sph) f μ c e) ∧
        evalObj (F.withCounts ns np).toFit (.kl F.klError) (fins c ++ fins e) = .ok p.kl := by
    intro ns np hns c e hc he hcp hep
    have h := hF ns np hns
    obtain ⟨p, p1, p2⟩ := goodness_klTotal h.data (by omega) h.mask hf c e hc he (fun a ha => (hcp a ha).le) hep
    obtain ⟨g1, g2⟩ := halves (c := fins c) (e := fins e) (by simp [hc, he])
    refine ⟨p, p1, p2, ?_⟩
    exact (evalObj_goodness (F.withCounts ns np).toFit (fins c ++ fins e) p (by rw [g1, g2]; exact p1)).2
  have hopt : ∀ o : FPIOpts, (o.optCoeffs = true ∨ o.optExpons = true) → ∀ ns np p, 1 ≤ ns →
      GoodVec PosNum ns np p → ∃ c' e' : List ℝ, klOptimise (F.withCounts ns np) o p = .ok (fins c' ++ fins e') ∧
        c'.length = ns + np ∧ e'.length = ns + np ∧ (∀ a ∈ c', 0 < a) ∧ (∀ a ∈ e', 0 < a) ∧
        (UpdatesCoeffs o → (∀ i < x.length, μ ≤ f i) → c'.sum ≤ t0) := by
    intro o ho ns np p hns hp
    obtain ⟨c, e, rfl, hc, he, hcp, hep⟩ := goodVec_pos hp
    obtain ⟨r, c', e', r1, r2, r3, r4, r5, r6, r7, r8⟩ :=
      fpi_run_pos (hF ns np hns) hnn ht (hsees ns np) o ho c e hc he hcp hep
    obtain ⟨g1, g2⟩ := halves (c := fins c) (e := fins e) (by simp [hc, he])
    refine ⟨c', e', ?_, r4, r5, r6, r7, fun hu hmask => r8 hu.1 hu.2.1 hu.2.2.1 hu.2.2.2 hmask⟩
    unfold klOptimise
    rw [g1, g2, r1]
    simp only [r2, r3]
  have hE : GoodEnv (klEnv F (fins x) c ol og rnd) PosNum (fun ns np p => UpdatesCoeffs og →
      (∀ i < x.length, μ ≤ f i) → ∀ a b : List ℝ, a.length = ns + np → p = fins a ++ fins b → a.sum ≤ t0) (n + 1) := by
    refine ⟨posNum_closed, ?_, ?_, ?_, ?_, hrnd⟩
    · intro t i ns np p hns hB hp
      obtain ⟨c', e', k1, k2, k3, k4, k5, -⟩ := hopt ol hol ns np p hns hp
      obtain ⟨q, -, q2, q3⟩ := hgoodness ns np hns c' e' k2 k3 k4 k5
      refine ⟨_, _, k1, pos_goodVec k2 k3 k4 k5, by rw [← q2]; exact q3, ?_⟩
      have := klTotal_lt (S := atomShape (x.map fun r => |r|) ns np) (μ := μ) (c := c') (e := e') hnn hf
      norm_num at hI ⊢
      linarith
    · intro t ns np p hns hB hp
      obtain ⟨c', e', k1, k2, k3, k4, k5, k6⟩ := hopt og hog ns np p hns hp
      refine ⟨_, k1, pos_goodVec k2 k3 k4 k5, ?_⟩
      intro hu hmask a b ha hab
      have := (List.append_inj hab (by simp [k2, ha])).1
      have : c' = a := List.map_injective_iff.mpr (fun a b hab => by simpa using hab) this
      rw [← this]
      exact k6 hu hmask
    · intro ns np p hns hp
      obtain ⟨c', e', rfl, k2, k3, k4, k5⟩ := goodVec_pos hp
      obtain ⟨q, -, q2, q3⟩ := hgoodness ns np hns c' e' k2 k3 k4 k5
      exact ⟨_, by rw [← q2]; exact q3⟩
    · intro ns np p hns hp
      obtain ⟨c', e', rfl, k2, k3, k4, k5⟩ := goodVec_pos hp
      obtain ⟨q, q1, -⟩ := hgoodness ns np hns c' e' k2 k3 k4 k5
      obtain ⟨g1, g2⟩ := halves (c := fins c') (e := fins e') (by simp [k2, k3])
      exact ⟨q, by show (F.withCounts ns np).goodness _ _ = _; rw [g1, g2]; exact q1⟩
  have hone : (klEnv F (fins x) c ol og rnd).oneFun 1 0 = .ok (fins [t0] ++
      fins [3 * t0 / (2 * ∑ i ∈ range x.length, sphW x i * (f i * vec x i ^ 2))]) := by
    show klOneFun F.grid (fins x) F.density F.integralDens = _
    rw [h2, h3.data.dens, h3.target]
    exact klOneFun_fins x f _ hM.ne'
  refine run_good hE hone ?_ ?_ hk rfl rfl
  · refine pos_goodVec rfl rfl (by simpa using ht) ?_
    intro a ha
    rw [List.mem_singleton] at ha
    rw [ha]
    positivity
  · intro _ _ a b ha hab
    have := (List.append_inj hab (by simp [ha])).1
    have : [t0] = a := List.map_injective_iff.mpr (fun a b hab => by simpa using hab) this
    rw [← this]
    simp

/-! ### GreedyLeastSquares -/

theorem lsInit_choice {points density : List XR} {method : String} {norm : Bool} {T : Option XR} {sph : Bool}
    {S : SFit} (h : lsInit points density "pick-one" method norm T sph = .ok (S, .pickOne)) {name : String}
    {c : Choice} (hc : Choice.parse name = .ok c) : lsInit points density name method norm T sph = .ok (S, c) := by
  unfold lsInit at h ⊢
  split at h
  · simp at h
  split at h
  · simp at h
  rw [choice_pickOne] at h
  simp only [Except.ok.injEq, Prod.mk.injEq, and_true] at h
  simp only [hc, h]

theorem goodVec_fin {ns np : ℕ} {p : List XR} (h : GoodVec FinNum ns np p) :
    ∃ c e : List ℝ, p = fins c ++ fins e ∧ c.length = ns + np ∧ e.length = ns + np := by
  have key : ∀ l : List XR, (∀ y ∈ l, FinNum y) → ∃ c : List ℝ, l = fins c := by
    intro l hl
    induction l with
    | nil => exact ⟨[], rfl⟩
    | cons y l ih =>
      obtain ⟨c, rfl⟩ := ih fun y hy => hl y (List.mem_cons_of_mem _ hy)
      obtain ⟨a, rfl⟩ := hl y List.mem_cons_self
      exact ⟨a :: c, rfl⟩
  obtain ⟨q, rfl⟩ := key p h.all
  have hl := h.len
  rw [fins_length] at hl
  refine ⟨q.take (ns + np), q.drop (ns + np), ?_, ?_, ?_⟩
  · rw [← List.map_append, List.take_append_drop]
  · rw [List.length_take]
    omega
  · rw [List.length_drop]
    omega

theorem fin_goodVec {ns np : ℕ} {c e : List ℝ} (hc : c.length = ns + np) (he : e.length = ns + np) :
    GoodVec FinNum ns np (fins c ++ fins e) := by
  constructor
  · rw [List.length_append, fins_length, fins_length]
    omega
  · intro y hy
    rcases List.mem_append.mp hy with hy | hy <;> obtain ⟨a, -, rfl⟩ := List.mem_map.mp hy <;> exact ⟨a, rfl⟩

/-- Solvers that do their job for the fit `S`: nnls returns something, and every minimisation of the objective
of `S` with `ns` s and `np` p functions, at most `B` in total, returns a point within the bounds with objective value below 1e10. -/
structure Solvers (S : SFit) (B : ℤ) (nnls : ℕ → ℕ → List (List XR) → List XR → Py (List XR))
    (mini : ℕ → ℕ → SProblem → Py SRes) : Prop where
  nnls : ∀ t i A b, ∃ c, nnls t i A b = .ok c
  mini : ∀ t i ns np P, 1 ≤ ns → ((ns + np : ℕ) : ℤ) ≤ B → P.objective = (fun y => (S.withCounts ns np).func y .none) →
    P.bounds = List.replicate (2 * (ns + np)) (XR.fin 1e-12, XR.pinf) →
    ∃ R v g, mini t i P = .ok R ∧ R.x.length = 2 * (ns + np) ∧
      (∀ y ∈ R.x, ∃ a : ℝ, 1e-12 ≤ a ∧ y = XR.fin a) ∧ P.objective R.x = .ok (XR.fin v, g) ∧ v < 1e10

/-- The objective handed to the minimiser is the squared error. -/
theorem ls_func (x : List ℝ) (f : ℕ → ℝ) (hf : ∀ i < x.length, 0 ≤ f i) {T : Option XR} {sph : Bool} {S : SFit}
    (hS : lsInit (fins x) (fins (tab x.length f)) "pick-one" "SLSQP" false T sph = .ok (S, .pickOne)) {ns np : ℕ}
    (hns : 1 ≤ ns) {c e : List ℝ} (hc : c.length = ns + np) (he : e.length = ns + np) :
    ∃ g, (S.withCounts ns np).func (fins (c ++ e)) .none = .ok (XR.fin (∑ i ∈ range x.length, radW x sph i *
      (f i - (atomShape (x.map fun r => |r|) ns np).dens false (vec c) (vec e) i) ^ 2), g) := by
  obtain ⟨S', h1, h2, h3, h4, h5, h6⟩ := lsInit_data x f hf false T sph
  rw [hS] at h1
  simp only [Except.ok.injEq, Prod.mk.injEq, and_true] at h1
  subst h1
  obtain ⟨-, hw, -⟩ := lsInit_fields hS
  have hw1 : S.weights = fins (tab x.length fun _ => 1) := by
    rw [hw]
    refine List.ext_getElem (by simp) ?_
    intro i _ _
    simp [fins, tab]
  have hW : Quad S.grid S.spherical x.length (radW x sph) := by
    rw [h2, h4]
    exact radW_quad x sph
  have hm : IsModel (S.withCounts ns np).model false (atomShape (x.map fun r => |r|) ns np) x.length := by
    have := atom_isModel
      (m := ⟨.one (fins x), [XR.fin 0], fins (x.map fun r => |r|), ns, np, false⟩)
      (rs := x.map fun r => |r|) (ns := ns) (np := np) ⟨rfl, rfl, rfl⟩ (by omega)
    rw [List.length_map] at this
    simpa [SFit.withCounts, h5, GModel.withCounts] using this
  have hD : FitData (S.withCounts ns np).toFit false (atomShape (x.map fun r => |r|) ns np) x.length (radW x sph) f :=
    ⟨hm, h3, hW⟩
  have hfun := func_fins (S := S.withCounts ns np) hD (w := fun _ => 1) hw1
    (by show MeasAt S.measure _ _ _ _ _; rw [h6]; exact measAt_sq _ f)
    (Params.both c e hc he) (by simp) (fun _ _ => trivial)
  simp only [one_mul] at hfun
  exact ⟨_, hfun⟩

/-- **C96** (least squares).  `GreedyLeastSquares` with unnormalised functions on a radial grid with a positive
density and two points at different distances, any strategy, any positive factor and finite threshold: if the
solvers do their job, the constructor and `run` return; all parameters and `fun` are finite, and those of
every accepted round after the first function are at least 1e-12. -/
theorem C96_least_squares (x : List ℝ) (f : ℕ → ℝ) (hf : ∀ i < x.length, 0 < f i)
    (hx : ∃ i < x.length, ∃ j < x.length, vec x i ^ 2 ≠ vec x j ^ 2) (T : Option XR) (sph : Bool)
    (name : String) (c : Choice) (hname : Choice.parse name = .ok c) :
    ∃ S, lsInit (fins x) (fins (tab x.length f)) name "SLSQP" false T sph = .ok (S, c) ∧
      ∀ (o : LSOpts) (nnls : ℕ → ℕ → List (List XR) → List XR → Py (List XR))
        (mini : ℕ → ℕ → SProblem → Py SRes) (rnd : ℕ → ℕ → ℕ → ℝ) (n : ℤ), Solvers S (n + 1) nnls mini →
        (∀ t w j, 0 < rnd t w j) → ∀ k d : ℝ, 0 < k →
          ∃ r ob', (lsEnv S (fins x) c o nnls mini rnd).run GObj.fresh (.float (XR.fin k))
              ⟨XR.fin d, n, none⟩ = .ok (r, ob') ∧
            GoodResult FinNum (fun ns np p => 2 ≤ ns + np → ∀ y ∈ p, ∃ a : ℝ, 1e-12 ≤ a ∧ y = XR.fin a) r := by
  obtain ⟨S, h1, h2, h3, h4, h5, h6⟩ := lsInit_data x f (fun i hi => (hf i hi).le) false T sph
  obtain ⟨-, hw, -⟩ := lsInit_fields h1
  refine ⟨S, lsInit_choice h1 hname, ?_⟩
  intro o nnls mini rnd n hsol hrnd k d hk
  obtain ⟨i0, hi0, j0, hj0, hij⟩ := hx
  have hN : 0 < x.length := by omega
  have hw1 : S.weights = fins (tab x.length fun _ => 1) := by
    rw [hw]
    refine List.ext_getElem (by simp) ?_
    intro i _ _
    simp [fins, tab]
  have hW : Quad S.grid S.spherical x.length (radW x sph) := by
    rw [h2, h4]
    exact radW_quad x sph
  have hD : ∀ ns np, 1 ≤ ns →
      FitData (S.withCounts ns np).toFit false (atomShape (x.map fun r => |r|) ns np) x.length (radW x sph) f := by
    intro ns np hns
    have := atom_isModel
      (m := ⟨.one (fins x), [XR.fin 0], fins (x.map fun r => |r|), ns, np, false⟩)
      (rs := x.map fun r => |r|) (ns := ns) (np := np) ⟨rfl, rfl, rfl⟩ (by omega)
    rw [List.length_map] at this
    have hm : IsModel (S.withCounts ns np).model false (atomShape (x.map fun r => |r|) ns np) x.length := by
      simpa [SFit.withCounts, h5, GModel.withCounts] using this
    exact ⟨hm, h3, hW⟩
  have hgof : ∀ ns np, 1 ≤ ns → ∀ c e : List ℝ, c.length = ns + np → e.length = ns + np →
      ∃ p v g, (S.withCounts ns np).goodness (fins c) (fins e) = .ok p ∧
        evalObj (S.withCounts ns np).toFit S.measure (fins c ++ fins e) = .ok (XR.fin v) ∧
        (S.withCounts ns np).func (fins c ++ fins e) .none = .ok (XR.fin v, g) := by
    intro ns np hns c e hc he
    obtain ⟨M, kl, g1, -⟩ := goodness_fins (hD ns np hns) hN c e hc he (by simp)
    obtain ⟨e1, e2⟩ := halves (c := fins c) (e := fins e) (by simp [hc, he])
    have hev := (evalObj_goodness (S.withCounts ns np).toFit (fins c ++ fins e) _ (by rw [e1, e2]; exact g1)).1
    have hfun := func_fins (S := S.withCounts ns np) (hD ns np hns) (w := fun _ => 1) hw1
      (by show MeasAt S.measure _ _ _ _ _; rw [h6]; exact measAt_sq _ f)
      (Params.both c e hc he) (by simp) (fun _ _ => trivial)
    simp only [one_mul] at hfun
    rw [← List.map_append] at hev ⊢
    exact ⟨_, _, _, g1, by rw [h6]; exact hev, hfun⟩
  have hopt : ∀ t i tol maxiter ns np p, 1 ≤ ns → ((ns + np : ℕ) : ℤ) ≤ n + 1 → GoodVec FinNum ns np p →
      ∃ q v, lsOptimise S (fins x) ns np (nnls t i) (mini t i) tol maxiter o.withConstraint p = .ok q ∧
        GoodVec FinNum ns np q ∧ evalObj (S.withCounts ns np).toFit S.measure q = .ok (XR.fin v) ∧ v < 1e10 ∧
        ∀ y ∈ q, ∃ a : ℝ, 1e-12 ≤ a ∧ y = XR.fin a := by
    intro t i tol maxiter ns np p hns hB hp
    obtain ⟨c0, hc0⟩ := hsol.nnls t i (cofactorMatrix (fins x) ns np (secondHalf p)) S.density
    have hnb : (S.withCounts ns np).model.nbasis = ((ns + np : ℕ) : ℤ) := by
      simp [SFit.withCounts, h5, GModel.withCounts, GModel.nbasis, Atomic.nbasis]
    obtain ⟨R, v, g, r1, r2, r3, r4, r5⟩ := hsol.mini t i ns np
      ⟨fun y => (S.withCounts ns np).func y .none, c0 ++ secondHalf p, S.method,
        List.replicate (2 * (ns + np)) (XR.fin 1e-12, XR.pinf),
        (S.withCounts ns np).constraints .none o.withConstraint, tol, maxiter⟩ hns hB rfl rfl
    have hgood : GoodVec FinNum ns np R.x := ⟨r2, fun y hy => by
      obtain ⟨a, -, rfl⟩ := r3 y hy
      exact ⟨a, rfl⟩⟩
    obtain ⟨c', e', hce, k1, k2⟩ := goodVec_fin hgood
    obtain ⟨q, v', g', q1, q2, q3⟩ := hgof ns np hns c' e' k1 k2
    simp only at r4
    rw [hce, q3] at r4
    simp only [Except.ok.injEq, Prod.mk.injEq, XR.fin_inj] at r4
    refine ⟨R.x, v, ?_, hgood, ?_, r5, r3⟩
    · unfold lsOptimise
      simp only
      rw [hc0]
      simp only
      have hprob : (S.withCounts ns np).problem c0 (secondHalf p) ⟨true, true, maxiter, tol, o.withConstraint⟩ =
          .ok ⟨fun y => (S.withCounts ns np).func y .none, c0 ++ secondHalf p, S.method,
            List.replicate (2 * (ns + np)) (XR.fin 1e-12, XR.pinf),
            (S.withCounts ns np).constraints .none o.withConstraint, tol, maxiter⟩ := by
        unfold SFit.problem SFit.setup
        simp only [Bool.and_self, if_true, hnb]
        rfl
      unfold SFit.run
      rw [hprob]
      simp only
      rw [r1]
      simp only [Bool.and_self, if_true, hnb, hce]
      have s1 : sliceTo (fins c' ++ fins e') ((ns + np : ℕ) : ℤ) = fins c' := by
        unfold sliceTo
        rw [if_pos (by omega), Int.toNat_natCast, List.take_left' (by simp [k1])]
      have s2 : sliceFrom (fins c' ++ fins e') ((ns + np : ℕ) : ℤ) = fins e' := by
        unfold sliceFrom
        rw [if_pos (by omega), Int.toNat_natCast, List.drop_left' (by simp [k1])]
      rw [s1, s2, q1]
    · rw [hce, q2, r4.1]
  have hE : GoodEnv (lsEnv S (fins x) c o nnls mini rnd) FinNum
      (fun ns np p => 2 ≤ ns + np → ∀ y ∈ p, ∃ a : ℝ, 1e-12 ≤ a ∧ y = XR.fin a) (n + 1) := by
    refine ⟨finNum_closed, ?_, ?_, ?_, ?_, hrnd⟩
    · intro t i ns np p hns hB hp
      obtain ⟨q, v, q1, q2, q3, q4, -⟩ := hopt t (i + 1) o.localTol o.lMaxiter ns np p hns hB hp
      exact ⟨q, v, q1, q2, q3, q4⟩
    · intro t ns np p hns hB hp
      obtain ⟨q, v, q1, q2, -, -, q5⟩ := hopt t 0 o.globalTol o.gMaxiter ns np p hns hB hp
      exact ⟨q, q1, q2, fun _ => q5⟩
    · intro ns np p hns hp
      obtain ⟨c', e', rfl, k2, k3⟩ := goodVec_fin hp
      obtain ⟨_, v, _, -, q2, -⟩ := hgof ns np hns c' e' k2 k3
      exact ⟨v, q2⟩
    · intro ns np p hns hp
      obtain ⟨c', e', rfl, k2, k3⟩ := goodVec_fin hp
      obtain ⟨q, _, _, q1, -⟩ := hgof ns np hns c' e' k2 k3
      obtain ⟨g1, g2⟩ := halves (c := fins c') (e := fins e') (by simp [k2, k3])
      exact ⟨q, by show (S.withCounts ns np).goodness _ _ = _; rw [g1, g2]; exact q1⟩
  have hthree : ∀ w : ℕ → ℝ, (∀ i < x.length, 0 < w i) → ∃ a b : ℝ,
      solveOneWeight (fins x) (fins (tab x.length f)) (fins (tab x.length w)) = fins [a] ++ fins [b] := by
    intro w hwp
    obtain ⟨a, b, h, -⟩ := C59_least_squares x.length (vec x) f w hf (fun i hi => (hwp i hi).le)
      ⟨i0, hi0, j0, hj0, hwp i0 hi0, hwp j0 hj0, hij⟩
    have e2 : tab x.length (vec x) = x := (eq_range_map x _ rfl).symm
    rw [e2] at h
    exact ⟨a, b, h⟩
  obtain ⟨a1, b1, t1⟩ := hthree (fun _ => 1) fun _ _ => one_pos
  obtain ⟨a2, b2, t2⟩ := hthree f hf
  obtain ⟨a3, b3, t3⟩ := hthree (fun i => f i ^ 2) fun i hi => pow_pos (hf i hi) 2
  have hone1 : List.replicate (fins x).length (XR.fin 1) = fins (tab x.length fun _ => 1) := by
    refine List.ext_getElem (by simp) ?_
    intro i _ _
    simp [fins, tab]
  have hsq : (fins (tab x.length f)).map (fun y => XR.pow y 2) = fins (tab x.length fun i => f i ^ 2) := by
    rw [map_tab (g := fun a => a ^ 2) (by intro a; simp)]
  obtain ⟨_, v1, _, -, u1, -⟩ := hgof 1 0 le_rfl [a1] [b1] rfl rfl
  obtain ⟨_, v2, _, -, u2, -⟩ := hgof 1 0 le_rfl [a2] [b2] rfl rfl
  obtain ⟨_, v3, _, -, u3, -⟩ := hgof 1 0 le_rfl [a3] [b3] rfl rfl
  obtain ⟨g, hg, hgood⟩ : ∃ g, (lsEnv S (fins x) c o nnls mini rnd).oneFun 1 0 = .ok g ∧ GoodVec FinNum 1 0 g := by
    show ∃ g, lsOneFun (fins x) S.density (evalObj (S.withCounts 1 0).toFit S.measure) = .ok g ∧ _
    unfold lsOneFun
    simp only
    rw [h3, hone1, hsq, t1, t2, t3]
    simp only [u1, u2, u3]
    refine ⟨_, rfl, ?_⟩
    have hm := pyMinKey_mem (XR.fin v1, fins [a1] ++ fins [b1])
      [(XR.fin v2, fins [a2] ++ fins [b2]), (XR.fin v3, fins [a3] ++ fins [b3])]
    simp only [List.mem_cons, List.not_mem_nil, or_false] at hm
    rcases hm with hm | hm | hm <;> rw [hm] <;> exact fin_goodVec rfl rfl
  exact run_good hE hg hgood (by intro h; omega) hk rfl rfl

/-- C96: three functions for the density 1 on the grid `0, 1` by Kullback-Leibler fits, whatever the random
numbers, the strategy being pick-two. -/
example (rnd : ℕ → ℕ → ℕ → ℝ) (hr : ∀ t w j, 0 < rnd t w j) (o : FPIOpts) (ho : o.optCoeffs = true) :
    ∃ F r ob', klInit (fins [0, 1]) (fins (tab 2 fun _ => 1)) "pick-two" (XR.fin 1e-10) none true =
        .ok (F, .pickTwo) ∧
      (klEnv F (fins [0, 1]) .pickTwo o o rnd).run GObj.fresh (.float (XR.fin 2)) ⟨XR.fin 1e-8, 3, none⟩ =
        .ok (r, ob') ∧ (∀ y ∈ r.coeffs ++ r.exps, PosNum y) := by
  have hq : ∑ i ∈ range [(0 : ℝ), 1].length, radW [0, 1] true i * 1 = 2 * π := by
    simp [Finset.sum_range_succ, radW, sphW, trapW, trapWAux, vec]
    ring
  have hpi := Real.pi_le_four
  obtain ⟨F, h1, h2⟩ := C96_kullback_leibler [0, 1] (by simp) (fun _ => 1) (fun _ _ => one_pos)
    ⟨1, by simp, by simp [trapW, trapWAux, vec], by simp [vec]⟩ 1e-10 none (by simp) true
    (by rw [hq]; linarith) "pick-two" .pickTwo (by decide)
  obtain ⟨r, ob', r1, r2⟩ := h2 o o rnd (.inl ho) (.inl ho) hr 2 1e-8 3 two_pos
  refine ⟨F, r, ob', h1, r1, ?_⟩
  intro y hy
  rcases List.mem_append.mp hy with hy | hy
  · exact r2.coeffs y hy
  · exact r2.exps y hy

/-- C96: the hypotheses on the solvers can be met: for the density 1 on the grid `0, 1` the minimiser that
always answers with ones is good enough. -/
example : ∃ S, lsInit (fins [0, 1]) (fins (tab 2 fun _ => 1)) "pick-one" "SLSQP" false none false =
      .ok (S, .pickOne) ∧
    Solvers S (3 + 1) (fun _ _ _ _ => .ok []) (fun _ _ P => .ok
      ⟨List.replicate P.bounds.length (XR.fin 1), XR.fin 0, [], true, ""⟩) := by
  obtain ⟨S, h1, -⟩ := lsInit_data [0, 1] (fun _ => 1) (fun _ _ => zero_le_one) false none false
  refine ⟨S, h1, fun _ _ _ _ => ⟨_, rfl⟩, ?_⟩
  intro t i ns np P hns hB ho hb
  obtain ⟨g, hg⟩ := ls_func [0, 1] (fun _ => 1) (fun _ _ => zero_le_one) h1 hns (np := np)
    (c := List.replicate (ns + np) 1) (e := List.replicate (ns + np) 1) (by simp) (by simp)
  have e1 : (List.replicate P.bounds.length (XR.fin 1)) =
      fins (List.replicate (ns + np) 1 ++ List.replicate (ns + np) 1) := by
    rw [hb, List.length_replicate, ← List.replicate_add, two_mul]
    simp [fins]
  rw [← e1] at hg
  refine ⟨_, _, g, rfl, by simp [hb], ?_, by rw [ho]; exact hg, ?_⟩
  · intro y hy
    rw [List.eq_of_mem_replicate hy]
    exact ⟨1, by norm_num, rfl⟩
  · have hd : ∀ i < 2, 0 ≤ (atomShape ([(0 : ℝ), 1].map fun r => |r|) ns np).dens false
          (vec (List.replicate (ns + np) 1)) (vec (List.replicate (ns + np) 1)) i ∧
        (atomShape ([(0 : ℝ), 1].map fun r => |r|) ns np).dens false
          (vec (List.replicate (ns + np) 1)) (vec (List.replicate (ns + np) 1)) i ≤ ns + np := by
      intro i hi
      have hterm : ∀ k ∈ range (ns + np), 0 ≤ vec (List.replicate (ns + np) 1) k *
          bf (decide (k < ns)) false (vec (List.replicate (ns + np) 1) k) (vec ([(0 : ℝ), 1].map fun r => |r|) i) ∧
          vec (List.replicate (ns + np) 1) k *
          bf (decide (k < ns)) false (vec (List.replicate (ns + np) 1) k) (vec ([(0 : ℝ), 1].map fun r => |r|) i)
            ≤ 1 := by
        intro k hk
        have hv : vec (List.replicate (ns + np) 1) k = 1 := by
          simp [vec, mem_range.mp hk]
        rw [hv, one_mul]
        have hexp : exp (-1) ≤ 1 := by
          rw [exp_le_one_iff]
          norm_num
        interval_cases i <;> cases decide (k < ns) <;> simp [bf, vec, sBasis, pBasis, exp_nonneg, hexp]
      constructor
      · exact Finset.sum_nonneg fun k hk => (hterm k hk).1
      · refine (Finset.sum_le_sum fun k hk => (hterm k hk).2).trans ?_
        simp [atomShape]
    have hB' : (ns + np : ℝ) ≤ 4 := by exact_mod_cast hB
    have hs := hd 0 (by norm_num)
    have ht := hd 1 (by norm_num)
    simp only [List.length_cons, List.length_nil, Finset.sum_range_succ, Finset.sum_range_zero, radW]
    simp only [trapW, trapWAux, vec] at *
    norm_num at *
    nlinarith

end
end BFit
