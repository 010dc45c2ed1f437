import Verif.Props.GreedyExit
import Verif.Props.GreedyErr
import Verif.Props.GreedyInit

/-!
# C122: number and size of the optimisations in a greedy search
-/

namespace BFit

open Classical

/-! ### number of guesses -/

theorem insertAt_length (k v : XR) (cs es : List XR) (i : ℕ) :
    (insertAt k v cs es i).1.length = cs.length + 1 ∧ (insertAt k v cs es i).2.length = es.length + 1 := by
  unfold insertAt npInsert
  split <;> simp <;> omega

theorem flatMap_last_length {α : Type} (n : ℕ) (a b : ℕ → α) :
    ((List.range n).flatMap fun i => a i :: (if i = n - 1 then [b i] else [])).length ≤ n + 1 := by
  cases n with
  | zero => simp
  | succ n =>
    rw [List.range_succ, List.flatMap_append, List.length_append]
    have : ∀ l : List ℕ, (∀ i ∈ l, i < n) →
        (l.flatMap fun i => a i :: (if i = n + 1 - 1 then [b i] else [])).length = l.length := by
      intro l hl
      induction l with
      | nil => rfl
      | cons x l ih =>
        have hx := hl x (by simp)
        rw [List.flatMap_cons, List.length_append, ih (fun i hi => hl i (by simp [hi])),
          if_neg (by omega)]
        simp; omega
    rw [this _ (fun i hi => List.mem_range.mp hi)]
    simp

theorem getNextChoices_length_le (k v : XR) (cs es : List XR) :
    (getNextChoices k cs es v).length ≤ es.length + 1 := by
  unfold getNextChoices
  exact flatMap_last_length es.length
    (fun i => (insertAt k v cs es i).1 ++ (insertAt k v cs es i).2)
    (fun i => (cs ++ [v]) ++ (es ++ [es.getD i 0 * k]))

theorem nextPairs_length_le (k v : XR) (cs es : List XR) :
    (nextPairs k cs es v).length ≤ es.length + 1 := by
  unfold nextPairs
  exact flatMap_last_length es.length (insertAt k v cs es)
    (fun i => (cs ++ [v], es ++ [es.getD i 0 * k]))

theorem mem_nextPairs_length {k v : XR} {cs es : List XR} {p : List XR × List XR}
    (h : p ∈ nextPairs k cs es v) : p.1.length = cs.length + 1 ∧ p.2.length = es.length + 1 := by
  unfold nextPairs at h
  obtain ⟨i, _, h⟩ := List.mem_flatMap.mp h
  rcases List.mem_cons.mp h with rfl | h
  · exact insertAt_length k v cs es i
  · split at h
    · rw [List.mem_singleton] at h; subst h; simp
    · exact absurd h List.not_mem_nil

theorem sliceFrom_nat_length {α : Type} (l : List α) (i : ℕ) : (sliceFrom l i).length = l.length - i := by
  unfold sliceFrom
  rw [if_pos (by omega)]
  simp

theorem mem_sliceFrom {α : Type} {l : List α} {i : ℤ} {x : α} (h : x ∈ sliceFrom l i) : x ∈ l := by
  unfold sliceFrom at h
  split at h <;> exact List.mem_of_mem_drop h


theorem sliceFrom_two_length {α : Type} (l : List α) : (sliceFrom l (-2)).length ≤ 2 := by
  unfold sliceFrom
  rw [if_neg (by omega), List.length_drop]
  omega

theorem getTwoNextChoices_length_le (k v : XR) (cs es : List XR) :
    2 * (getTwoNextChoices k cs es v).length ≤ (es.length + 1) * (es.length + 4) := by
  unfold getTwoNextChoices
  simp only [List.length_map]
  rw [List.length_flatMap]
  set n := es.length with hn
  set len : ℕ → ℕ := fun i => (sliceFrom (nextPairs k (insertAt k v cs es i).1 (insertAt k v cs es i).2 v) i ++
      (if i = n - 1 then
        sliceFrom (nextPairs k (cs ++ [v]) (es ++ [es.getD i 0 * k]) v) (-2)
      else [])).length with hlen
  have h1 : ∀ i, len i ≤ (n + 2 - i) + (if i = n - 1 then 2 else 0) := by
    intro i
    rw [hlen]
    simp only [List.length_append]
    refine Nat.add_le_add ?_ ?_
    · rw [sliceFrom_nat_length]
      have := nextPairs_length_le k v (insertAt k v cs es i).1 (insertAt k v cs es i).2
      rw [(insertAt_length k v cs es i).2] at this
      omega
    · split
      · exact sliceFrom_two_length _
      · simp
  have key : ∀ m, m ≤ n →
      2 * ((List.range m).map len).sum + m * m ≤ m * (2 * n + 5) + (if m = n then 4 else 0) := by
    clear hlen hn
    clear_value len n
    intro m
    induction m with
    | zero => intro _; simp
    | succ m ih =>
      intro hm
      have a1 := ih (by omega)
      rw [if_neg (by omega)] at a1
      have a2 := h1 m
      rw [List.range_succ, List.map_append, List.sum_append]
      simp only [List.map_cons, List.map_nil, List.sum_cons, List.sum_nil, add_zero]
      obtain ⟨d, rfl⟩ := Nat.exists_eq_add_of_le (show m ≤ n by omega)
      have e : m + d + 2 - m = d + 2 := by omega
      rw [e] at a2
      by_cases hd : m + 1 = m + d
      · rw [if_pos hd]
        rw [if_pos (by omega)] at a2
        nlinarith
      · rw [if_neg hd]
        rw [if_neg (by omega)] at a2
        nlinarith
  have := key n le_rfl
  rw [if_pos rfl] at this
  change 2 * ((List.range n).map len).sum ≤ _
  nlinarith

theorem mem_getTwoNextChoices_length {k v : XR} {cs es x : List XR}
    (h : x ∈ getTwoNextChoices k cs es v) : x.length = cs.length + es.length + 4 := by
  unfold getTwoNextChoices at h
  simp only at h
  obtain ⟨p, hp, rfl⟩ := List.mem_map.mp h
  obtain ⟨i, _, hp⟩ := List.mem_flatMap.mp hp
  rw [List.length_append]
  rcases List.mem_append.mp hp with hp | hp
  · have := mem_nextPairs_length (mem_sliceFrom hp)
    rw [(insertAt_length k v cs es i).1, (insertAt_length k v cs es i).2] at this
    omega
  · split at hp
    · have := mem_nextPairs_length (mem_sliceFrom hp)
      simp at this
      omega
    · exact absurd hp List.not_mem_nil

theorem pickTwoLoseOne_length_le (k v : XR) (cs es : List XR) (n : ℕ) (hc : cs.length ≤ n)
    (he : es.length ≤ n) :
    (pickTwoLoseOne k cs es v).length ≤ (getTwoNextChoices k cs es v).length * (n + 2) := by
  unfold pickTwoLoseOne
  rw [List.length_flatMap]
  have : ∀ l : List (List XR), (∀ x ∈ l, x.length ≤ 2 * (n + 2)) →
      (l.map fun p => ((List.range (p.length / 2)).map fun j =>
        npDelete (p.take (p.length / 2)) [j] ++ npDelete (p.drop (p.length / 2)) [j]).length).sum ≤
        l.length * (n + 2) := by
    intro l hl
    induction l with
    | nil => simp
    | cons x l ih =>
      have h1 := hl x (by simp)
      have h2 := ih (fun y hy => hl y (by simp [hy]))
      rw [List.map_cons, List.sum_cons, List.length_cons, add_mul, one_mul]
      simp only [List.length_map, List.length_range] at h2 ⊢
      omega
  refine this _ fun x hx => ?_
  rw [mem_getTwoNextChoices_length hx]
  omega

/-- The number of guesses that extend `n ≥ 1` functions of one type: `n + 1` for pick-one,
`(n + 1)(n + 4) / 2` for pick-two and `n + 2` times as many for pick-two-lose-one. -/
def guessCount : Choice → ℕ → ℕ
  | .pickOne, n => n + 1
  | .pickTwo, n => (n + 1) * (n + 4) / 2
  | .pickTwoLoseOne, n => (n + 1) * (n + 4) / 2 * (n + 2)

theorem next_length_le (c : Choice) (k : XR) (cs es : List XR) (n : ℕ) (hc : cs.length ≤ n)
    (he : es.length ≤ n) : (c.next k cs es).length ≤ guessCount c n := by
  have h2 : (getTwoNextChoices k cs es (XR.fin 100)).length ≤ (n + 1) * (n + 4) / 2 := by
    have h := getTwoNextChoices_length_le k (XR.fin 100) cs es
    have : (es.length + 1) * (es.length + 4) ≤ (n + 1) * (n + 4) :=
      Nat.mul_le_mul (by omega) (by omega)
    omega
  cases c with
  | pickOne => exact (getNextChoices_length_le k (XR.fin 100) cs es).trans (by simp [guessCount]; omega)
  | pickTwo => exact h2
  | pickTwoLoseOne =>
    exact (pickTwoLoseOne_length_le k (XR.fin 100) cs es n hc he).trans (Nat.mul_le_mul_right _ h2)

theorem guessCount_add (c : Choice) (a b : ℕ) (ha : 1 ≤ a) (hb : 1 ≤ b) :
    guessCount c a + guessCount c b ≤ guessCount c (a + b) + 3 := by
  have e : ∀ n, 2 * ((n + 1) * (n + 4) / 2) = (n + 1) * (n + 4) := by
    intro n
    have : 2 ∣ (n + 1) * (n + 4) := by
      rcases Nat.even_or_odd n with ⟨k, rfl⟩ | ⟨k, rfl⟩
      · exact Dvd.dvd.mul_left ⟨k + 2, by ring⟩ _
      · exact Dvd.dvd.mul_right ⟨k + 1, by ring⟩ _
    omega
  have h1 := e a
  have h2 := e b
  have h3 := e (a + b)
  have hab : 1 ≤ a * b := Nat.mul_pos ha hb
  cases c with
  | pickOne => simp [guessCount]; omega
  | pickTwo =>
    simp only [guessCount]
    nlinarith
  | pickTwoLoseOne =>
    simp only [guessCount]
    generalize (a + 1) * (a + 4) / 2 = x at *
    generalize (b + 1) * (b + 4) / 2 = y at *
    generalize (a + b + 1) * (a + b + 4) / 2 = z at *
    have k1 : 2 * (x * (a + 2)) = (a + 1) * (a + 4) * (a + 2) := by rw [← h1]; ring
    have k2 : 2 * (y * (b + 2)) = (b + 1) * (b + 4) * (b + 2) := by rw [← h2]; ring
    have k3 : 2 * (z * (a + b + 2)) = (a + b + 1) * (a + b + 4) * (a + b + 2) := by rw [← h3]; ring
    have k4 : a ≤ a * (a * b) := Nat.le_mul_of_pos_right a (by omega)
    have k5 : b ≤ b * (a * b) := Nat.le_mul_of_pos_right b (by omega)
    nlinarith

/-! ### runs that make the same calls -/

/-- Two interfaces that agree on the optimisations numbered below `R` (rounds) and `B` (guesses of a
round) and on models with at most `M` functions. -/
structure GEnv.Agree (E E' : GEnv) (R B M : ℕ) : Prop where
  choice : E'.choice = E.choice
  oneFun : E'.oneFun 1 0 = E.oneFun 1 0
  optLocal : ∀ t < R, ∀ i < B, ∀ ns np p, ns + np ≤ M → E'.optLocal t i ns np p = E.optLocal t i ns np p
  optGlobal : ∀ t < R, ∀ ns np p, ns + np ≤ M → E'.optGlobal t ns np p = E.optGlobal t ns np p
  obj : ∀ ns np p, ns + np ≤ M → E'.obj ns np p = E.obj ns np p
  gof : ∀ ns np p, ns + np ≤ M → E'.gof ns np p = E.gof ns np p
  rnd : ∀ t < R, ∀ w k, E'.rnd t w k = E.rnd t w k

variable {E E' : GEnv} {R B M : ℕ}

theorem GEnv.Agree.findBestLoop (A : E.Agree E' R B M) {t ns np numS : ℕ} (ht : t < R)
    (hM : ns + np + E.choice.inc ≤ M) (params : List (List XR)) (l : List ℕ) (hl : ∀ i ∈ l, i < B)
    (acc : XR × Option (List XR) × Bool) :
    E'.findBestLoop t ns np params numS l acc = E.findBestLoop t ns np params numS l acc := by
  induction l generalizing acc with
  | nil => rfl
  | cons i l ih =>
    have hi := hl i (by simp)
    have hM' : (if i < numS then ns + E.choice.inc else ns) + (if i < numS then np else np + E.choice.inc) ≤ M := by
      split <;> omega
    unfold GEnv.findBestLoop
    cases params[i]? with
    | none => rfl
    | some p =>
      simp only
      rw [A.choice, A.optLocal t ht i hi _ _ _ hM']
      cases E.optLocal t i (if i < numS then ns + E.choice.inc else ns)
          (if i < numS then np else np + E.choice.inc) p with
      | error e => rfl
      | ok lp =>
        simp only
        rw [A.obj _ _ _ hM']
        cases E.obj (if i < numS then ns + E.choice.inc else ns)
            (if i < numS then np else np + E.choice.inc) lp with
        | error e => rfl
        | ok v => exact ih (fun j hj => hl j (by simp [hj])) _

theorem GEnv.Agree.finishRound (A : E.Agree E' R B M) {s : GState} (ht : s.round < R)
    (hM : s.numS + s.numP + E.choice.inc ≤ M) (f : XR) (bp : Option (List XR)) (isS : Bool) :
    E'.finishRound f s bp isS = E.finishRound f s bp isS := by
  have hM' : (if isS = true then s.numS + E.choice.inc else s.numS) +
      (if isS = true then s.numP else s.numP + E.choice.inc) ≤ M := by
    split <;> omega
  unfold GEnv.finishRound
  cases bp with
  | none => rfl
  | some p =>
    simp only
    rw [A.choice, A.optGlobal _ ht _ _ _ hM']
    cases E.optGlobal s.round (if isS = true then s.numS + E.choice.inc else s.numS)
        (if isS = true then s.numP else s.numP + E.choice.inc) p with
    | error e => rfl
    | ok op =>
      simp only
      rw [A.obj _ _ _ hM', A.gof _ _ _ hM']

theorem GEnv.Agree.step (A : E.Agree E' R B M) {s : GState} (ht : s.round < R)
    (hM : s.numS + s.numP + E.choice.inc ≤ M)
    (hB : (E.choicesS s).length + (E.choicesP s).length ≤ B) (o : GOpts) (f : XR) :
    E'.step o f s = E.step o f s := by
  have h1 : E'.choicesS s = E.choicesS s := by unfold GEnv.choicesS; rw [A.choice]
  have hr : ∀ w m b, E'.randVec s.round w m b = E.randVec s.round w m b := by
    intro w m b
    unfold GEnv.randVec
    rw [A.choice]
    simp only [A.rnd _ ht]
  have h2 : E'.choicesP s = E.choicesP s := by unfold GEnv.choicesP; simp only [A.choice, hr]
  have h3 : E'.totalChoices o s = E.totalChoices o s := by unfold GEnv.totalChoices; rw [h1, h2]
  unfold GEnv.step
  rw [h3, h1, h2]
  cases E.totalChoices o s with
  | error e => rfl
  | ok total =>
    simp only
    have h4 : E'.findBest s.round s.numS s.numP total (E.choicesS s).length (E.choicesP s).length =
        E.findBest s.round s.numS s.numP total (E.choicesS s).length (E.choicesP s).length :=
      A.findBestLoop ht hM _ _ (fun i hi => by have := List.mem_range.mp hi; omega) _
    rw [h4]
    cases E.findBest s.round s.numS s.numP total (E.choicesS s).length (E.choicesP s).length with
    | error e => rfl
    | ok r => exact A.finishRound ht hM f _ _

/-- In a state of a run of a fresh object the number of guesses is bounded by the number of functions. -/
theorem guesses_le (hE : E.SizeChecked) {s : GState} {hist : List Accepted} {last : Accepted}
    (H : History E GObj.fresh s hist last) :
    (E.choicesS s).length + (E.choicesP s).length ≤ guessCount E.choice (s.numS + s.numP) + 3 := by
  have hl := hE _ _ _ _ (H.valid last (List.mem_of_getLast? H.isLast)).1
  rw [H.lastParams] at hl
  have a1 := H.lastS
  have a2 := H.lastP
  have hS : (E.choicesS s).length ≤ guessCount E.choice s.numS := by
    unfold GEnv.choicesS
    rw [List.length_map]
    refine next_length_le _ _ _ _ _ ?_ ?_
    · simp only [splitParams, List.length_take]; omega
    · simp only [splitParams, List.length_take, List.length_drop]; omega
  by_cases hp : s.numP = 0
  · have hP : (E.choicesP s).length = 3 := by
      unfold GEnv.choicesP
      simp only [hp, if_true, List.length_map, List.length_cons, List.length_nil]
    rw [hP, hp, add_zero]; omega
  · have hP : (E.choicesP s).length ≤ guessCount E.choice s.numP := by
      unfold GEnv.choicesP
      simp only [hp, if_false, List.length_map]
      refine next_length_le _ _ _ _ _ ?_ ?_
      · simp only [splitParams, List.length_take, List.length_drop]; omega
      · simp only [splitParams, List.length_drop]; omega
    have h1 : 1 ≤ s.numS := by
      obtain ⟨a, ha, hs, _⟩ := H.first
      have hne : a ∈ hist := List.mem_of_mem_head? ha
      have : a.ns ≤ last.ns := by
        have hsp : hist = hist.dropLast ++ [last] := by
          rcases List.eq_nil_or_concat hist with h | ⟨L, b, h⟩
          · rw [h] at hne; exact absurd hne List.not_mem_nil
          · have := H.isLast
            rw [h] at this ⊢
            simp at this
            simp [this]
        have hg := H.grows
        rw [hsp, List.pairwise_append] at hg
        rw [hsp] at hne
        rcases List.mem_append.mp hne with h | h
        · exact (hg.2.2 a h last (by simp)).1
        · rw [List.mem_singleton] at h; rw [h]
      have : GObj.fresh.numS = 1 := rfl
      omega
    have := guessCount_add E.choice s.numS s.numP h1 (by omega)
    omega

theorem guessCount_mono (c : Choice) {a b : ℕ} (h : a ≤ b) : guessCount c a ≤ guessCount c b := by
  have h2 : (a + 1) * (a + 4) / 2 ≤ (b + 1) * (b + 4) / 2 :=
    Nat.div_le_div_right (Nat.mul_le_mul (by omega) (by omega))
  cases c with
  | pickOne => simp [guessCount]; omega
  | pickTwo => exact h2
  | pickTwoLoseOne => exact Nat.mul_le_mul h2 (by omega)

theorem agree_loop (hE : E.SizeChecked) {N : ℕ} {o : GOpts} (hN : o.maxFuncs - 1 ≤ N)
    (A : E.Agree E' R (guessCount E.choice N + 3) (N + E.choice.inc)) (f : XR) (n : ℕ) (s : GState)
    (hn : s.round + n ≤ R) {hist : List Accepted} {last : Accepted} (H : History E GObj.fresh s hist last) :
    E'.loop o f n s = E.loop o f n s := by
  induction n generalizing s hist last with
  | zero => rfl
  | succ n ih =>
    unfold GEnv.loop
    by_cases hc : s.continues o
    · rw [if_pos hc, if_pos hc]
      have hcnt := H.count
      have e1 : GObj.fresh.numS = 1 := rfl
      have e2 : GObj.fresh.numP = 0 := rfl
      have h1 := hc.1
      have hle : s.numS + s.numP ≤ N := by rw [e1, e2] at hcnt; push_cast at hcnt; omega
      rw [A.step (s := s) (by omega) (by omega)
        ((guesses_le hE H).trans (Nat.add_le_add_right (guessCount_mono _ hle) 3))]
      cases hst : E.step o f s with
      | error e => rfl
      | ok s' =>
        obtain ⟨hist', last', H', _⟩ := history_step H hst
        have hr := (step_cases hst).2
        exact ih s' (by omega) H'
    · rw [if_neg hc, if_neg hc]

/-- **C122.**  Calls of the optimiser.  Let `N = max(0, max_numb_funcs - 1)`.  A greedy search of a
fresh object makes at most `5 N` rounds, optimises at most `g(N) + 3` guesses locally and one globally
in each, and all these calls are for models with at most `N` plus the increment of the strategy
functions; `g(N)` is `N + 1` for pick-one, `(N + 1)(N + 4) / 2` for pick-two and `N + 2` times that for
pick-two-lose-one.  Observably: changing what the optimiser, the objective, the errors or the random
numbers would answer outside this range changes nothing about the run. -/
theorem C122_calls (E E' : GEnv) (hE : E.SizeChecked) (factor : PyObj) (o : GOpts) (N : ℕ)
    (hN : (N : ℤ) = max 0 (o.maxFuncs - 1)) (hch : E'.choice = E.choice)
    (hone : E'.oneFun 1 0 = E.oneFun 1 0)
    (hloc : ∀ t < 5 * N, ∀ i < guessCount E.choice N + 3, ∀ ns np p, ns + np ≤ N + E.choice.inc →
      E'.optLocal t i ns np p = E.optLocal t i ns np p)
    (hglob : ∀ t < 5 * N, ∀ ns np p, ns + np ≤ N + E.choice.inc →
      E'.optGlobal t ns np p = E.optGlobal t ns np p)
    (hobj : ∀ ns np p, ns + np ≤ N + E.choice.inc → E'.obj ns np p = E.obj ns np p)
    (hgof : ∀ ns np p, ns + np ≤ N + E.choice.inc → E'.gof ns np p = E.gof ns np p)
    (hrnd : ∀ t < 5 * N, ∀ w k, E'.rnd t w k = E.rnd t w k) :
    E'.run GObj.fresh factor o = E.run GObj.fresh factor o := by
  have A : E.Agree E' (5 * N) (guessCount E.choice N + 3) (N + E.choice.inc) :=
    ⟨hch, hone, hloc, hglob, hobj, hgof, hrnd⟩
  have hinc := E.choice.inc_pos
  have hst : ∀ f, E'.start GObj.fresh f = E.start GObj.fresh f := by
    intro f
    unfold GEnv.start
    have e1 : GObj.fresh.modelS = 1 := rfl
    have e2 : GObj.fresh.modelP = 0 := rfl
    rw [e1, e2, hone]
    cases E.oneFun 1 0 with
    | error e => rfl
    | ok g =>
      simp only
      rw [hgof 1 0 g (by omega), hobj 1 0 g (by omega)]
  unfold GEnv.run
  cases factor <;> try rfl
  rename_i f
  simp only
  split
  · rfl
  · rw [hst]
    cases hs : E.start GObj.fresh f with
    | error e => rfl
    | ok s0 =>
      simp only
      obtain ⟨last, H⟩ := history_start hs rfl rfl
      have hr0 : s0.round = 0 := by
        obtain ⟨g, err, v, _, _, _, rfl⟩ := start_ok hs; rfl
      have e : (o.maxFuncs - 1).toNat = N := by omega
      rw [e, agree_loop hE (by omega) A f (5 * N) s0 (by omega) H]
      cases hl : E.loop o f (5 * N) s0 with
      | error e => rfl
      | ok s =>
        simp only
        obtain ⟨g, err, v, _, _, _, hs0⟩ := start_ok hs
        have hb : 5 * o.maxFuncs ≤ 5 * s0.numbFuncs + s0.redum + (5 * N : ℕ) := by
          rw [hs0]; push_cast; omega
        obtain ⟨n, hr, _⟩ := (loop_ok_iff _ _ _ hb).mp hl
        obtain ⟨hist, last', H'⟩ := history_rounds hs rfl rfl hr
        have hcnt := H'.count
        simp only [GObj.fresh] at hcnt
        have key : s.numbFuncs ≤ N + E.choice.inc := by
          cases hr with
          | refl => rw [hs0]; push_cast; omega
          | step h1 h2 h3 =>
            have a1 := h2.1
            rcases (step_cases h3).1 with ⟨_, _, _, _, _, _, _, hn, _, _, _, _⟩ |
              ⟨_, _, _, _, _, _, _, _, _, _, _, _, _, hn, _, _, _, _⟩ | ⟨_, _, _, _, _, _, hn, _, _, _, _⟩
            all_goals
              rw [hn]
              omega
        have ho := hobj s.modelS s.modelP (s.paramsIter.getLastD [])
          (by rw [H'.modelS, H'.modelP]; push_cast at hcnt; omega)
        unfold GEnv.finish
        simp only
        rw [ho]

/-- **C122** for `GreedyLeastSquares`: in a search by a fresh object only the first `5 N` rounds and, in
each, only the global optimisation (call 0) and the first `g + 3` local ones (calls 1 to `g + 3`) of the
nnls solver and of the optimiser matter, so these are called at most `5 N (g + 4)` times; `g` is the
number belonging to the name of the strategy. -/
theorem C122_least_squares (points density : List XR) (name method : String) (norm : Bool) (T : Option XR)
    (sph : Bool) (S : SFit) (c : Choice) (hS : lsInit points density name method norm T sph = .ok (S, c))
    (lo : LSOpts) (factor : PyObj) (o : GOpts) (N g : ℕ) (hN : (N : ℤ) = max 0 (o.maxFuncs - 1))
    (hg : name = "pick-one" ∧ g = N + 1 ∨ name = "pick-two" ∧ 2 * g = (N + 1) * (N + 4) ∨
      name = "pick-two-lose-one" ∧ 2 * g = (N + 1) * (N + 4) * (N + 2))
    (nnls nnls' : ℕ → ℕ → List (List XR) → List XR → Py (List XR))
    (mini mini' : ℕ → ℕ → SProblem → Py SRes) (rnd rnd' : ℕ → ℕ → ℕ → ℝ)
    (hcalls : ∀ t < 5 * N, ∀ j < g + 4, nnls' t j = nnls t j ∧ mini' t j = mini t j)
    (hrnd : ∀ t < 5 * N, rnd' t = rnd t) :
    (lsEnv S points c lo nnls' mini' rnd').run GObj.fresh factor o =
      (lsEnv S points c lo nnls mini rnd).run GObj.fresh factor o := by
  obtain ⟨-, -, m, hm, -⟩ := lsInit_fields hS
  have hc : Choice.parse name = .ok c := by
    unfold lsInit at hS
    repeat' split at hS
    all_goals first
      | (simp at hS; done)
      | (injection hS with hS; injection hS with h1 h2; rw [← h2]; assumption)
  have hG : guessCount c N ≤ g := by
    have e : (N + 1) * (N + 4) / 2 * (N + 2) ≤ (N + 1) * (N + 4) * (N + 2) / 2 := by
      rw [Nat.le_div_iff_mul_le (by norm_num)]
      calc (N + 1) * (N + 4) / 2 * (N + 2) * 2 = (N + 1) * (N + 4) / 2 * 2 * (N + 2) := by ring
        _ ≤ (N + 1) * (N + 4) * (N + 2) := Nat.mul_le_mul_right _ (Nat.div_mul_le_self _ _)
    rcases hg with ⟨rfl, h⟩ | ⟨rfl, h⟩ | ⟨rfl, h⟩
    all_goals
      rw [show Choice.parse _ = _ from rfl] at hc
      injection hc with hc
      subst hc
      simp only [guessCount]
      omega
  refine C122_calls _ _ (lsEnv_sizeChecked S m hm points c lo nnls mini rnd) factor o N hN rfl rfl ?_ ?_
    (fun _ _ _ _ => rfl) (fun _ _ _ _ => rfl) (fun t ht w k => by
      show rnd' t w k = rnd t w k
      rw [hrnd t ht])
  · intro t ht i hi ns np p _
    have hi' : i < guessCount c N + 3 := hi
    show lsOptimise S points ns np (nnls' t (i + 1)) (mini' t (i + 1)) _ _ _ p = _
    rw [(hcalls t ht (i + 1) (by omega)).1, (hcalls t ht (i + 1) (by omega)).2]
    rfl
  · intro t ht ns np p _
    show lsOptimise S points ns np (nnls' t 0) (mini' t 0) _ _ _ p = _
    rw [(hcalls t ht 0 (by omega)).1, (hcalls t ht 0 (by omega)).2]
    rfl

/-- Example: with three functions at most (`N = 2`, `g = 3`) an optimiser that fails from the eleventh
round on, or from the seventh guess of a round on, goes unnoticed. -/
example (lo : LSOpts) (mini : ℕ → ℕ → SProblem → Py SRes)
    (nnls : ℕ → ℕ → List (List XR) → List XR → Py (List XR)) (rnd : ℕ → ℕ → ℕ → ℝ) :
    ∃ S c, lsInit (fins [0, 1, 2]) (fins [3, 2, 1]) "pick-one" "SLSQP" true none true = .ok (S, c) ∧
      (lsEnv S (fins [0, 1, 2]) c lo nnls
          (fun t j P => if 10 ≤ t ∨ 7 ≤ j then .error .runtimeError else mini t j P) rnd).run GObj.fresh
          (.float (XR.fin 2)) ⟨XR.fin 1e-8, 3, none⟩ =
        (lsEnv S (fins [0, 1, 2]) c lo nnls mini rnd).run GObj.fresh (.float (XR.fin 2))
          ⟨XR.fin 1e-8, 3, none⟩ := by
  obtain ⟨S, c, h, -⟩ := (C109_least_squares [0, 1, 2] [3, 2, 1] "pick-one" "SLSQP" true none true).1
    ⟨rfl, by simp, .inl (by decide), .inl rfl⟩
  refine ⟨S, c, h, C122_least_squares _ _ _ _ _ _ _ S c h lo _ _ 2 3 (by norm_num) (.inl ⟨rfl, rfl⟩) _ _ _ _ _ _
    (fun t ht j hj => ⟨rfl, ?_⟩) (fun _ _ => rfl)⟩
  funext P
  exact if_neg (by omega)

/-- **C122** is sharp: with `max_numb_funcs = 2` and pick-one (`N = 1`, so five rounds of at most five
guesses), the outcome of the run can depend on the last guess of the last round. -/
theorem C122_sharp : ∃ (E E' : GEnv) (o : GOpts), E.SizeChecked ∧ E.choice = .pickOne ∧
    o.maxFuncs = 2 ∧ guessCount .pickOne 1 + 3 = 4 + 1 ∧
    E' = { E with optLocal := fun t i ns np p =>
      if t = 4 ∧ i = 4 then .error .runtimeError else E.optLocal t i ns np p } ∧
    (∃ r, E.run GObj.fresh (.float (XR.fin 2)) o = .ok r) ∧
    E'.run GObj.fresh (.float (XR.fin 2)) o = .error .runtimeError := by
  set val : ℕ → XR := fun n => XR.fin (if n = 1 then 1 else 2) with hvaldef
  set o : GOpts := ⟨XR.fin 0, 2, none⟩ with ho
  set E := toyEnv .pickOne val with hEd
  set E' : GEnv := { E with optLocal := fun t i ns np p =>
      if t = 4 ∧ i = 4 then .error .runtimeError else E.optLocal t i ns np p } with hE'
  refine ⟨E, E', o, toyEnv_sizeChecked _ _, rfl, rfl, rfl, rfl,
    ⟨_, toy_five_failures .pickOne 1 2 0 2 (by norm_num) (by norm_num) (by norm_num)⟩, ?_⟩
  have hval : val 2 = XR.fin 2 := by simp [val]
  have hval1 : val 1 = XR.fin 1 := by simp [val]
  have hcont : ∀ k < 5, ∀ fk, ({ toyStart val (XR.fin 2) with redum := k, factor := fk, round := k } : GState).continues o := by
    intro k hk fk
    refine ⟨?_, hk, ?_⟩
    · show (1 : ℤ) ≤ 2 - 1; norm_num
    · show XR.fin 0 ≤ (val 1 - XR.pinf).abs
      rw [hval1]; trivial
  have A : ∀ B M, E.Agree E' 4 B M := by
    intro B M
    refine ⟨rfl, rfl, ?_, fun _ _ _ _ _ _ => rfl, fun _ _ _ _ => rfl, fun _ _ _ _ => rfl, fun _ _ _ _ => rfl⟩
    intro t ht i _ ns np p _
    show (if t = 4 ∧ i = 4 then _ else _) = _
    rw [if_neg (by omega)]
  have key : ∀ k ≤ 4, ∃ fk, Rounds E' o (XR.fin 2) (toyStart val (XR.fin 2)) k
      { toyStart val (XR.fin 2) with redum := k, factor := fk, round := k } := by
    intro k
    induction k with
    | zero => exact fun _ => ⟨XR.fin 2, .refl⟩
    | succ k ih =>
      intro hk
      obtain ⟨fk, hr⟩ := ih (by omega)
      refine ⟨fk * XR.fin 2, .step hr (hcont k (by omega) fk) ?_⟩
      rw [(A _ _).step (by show k < 4; omega) le_rfl le_rfl]
      refine toy_fail .pickOne val o rfl (XR.fin 2) _ (toyParams_length 1 0) (le_refl 1) ?_ ?_
      · show val 2 < _
        rw [hval]; norm_num
      · show val 1 < val 2
        rw [hval, hval1]; norm_num
  obtain ⟨fk, hr⟩ := key 4 le_rfl
  set s4 : GState := { toyStart val (XR.fin 2) with redum := 4, factor := fk, round := 4 } with hs4
  have hstep : E'.step o (XR.fin 2) s4 = .error .runtimeError := by
    have hS : (E'.choicesS s4).length = 2 := by
      unfold GEnv.choicesS
      rw [List.length_map]
      have : splitParams s4.numS s4.numP s4.gparams = _ := toy_split 1 0
      rw [this]
      exact (C46_sizes fk (XR.fin 100) _ _ (by simp) (by simp)).1
    have hP : (E'.choicesP s4).length = 3 := by
      unfold GEnv.choicesP
      simp only [show s4.numP = 0 from rfl, if_true, List.length_map, List.length_cons, List.length_nil]
    have ht : E'.totalChoices o s4 = .ok (E'.choicesS s4 ++ E'.choicesP s4) := rfl
    unfold GEnv.step
    rw [ht]
    simp only
    have hf : E'.findBest s4.round s4.numS s4.numP (E'.choicesS s4 ++ E'.choicesP s4)
        (E'.choicesS s4).length (E'.choicesP s4).length = .error .runtimeError := by
      have hlen : (E'.choicesS s4 ++ E'.choicesP s4).length = 5 := by rw [List.length_append, hS, hP]
      unfold GEnv.findBest
      rw [hS, hP]
      generalize E'.choicesS s4 ++ E'.choicesP s4 = ps at hlen
      have go : ∀ i < 4, ∀ l acc, ∃ acc', E'.findBestLoop 4 1 0 ps 2 (i :: l) acc =
          E'.findBestLoop 4 1 0 ps 2 l acc' := by
        intro i hi l acc
        rw [GEnv.findBestLoop, List.getElem?_eq_getElem (show i < ps.length by omega)]
        simp only
        have e1 : ∀ ms mp p, E'.optLocal 4 i ms mp p = .ok (toyParams ms mp) := by
          intro ms mp p
          show (if _ then _ else _) = _
          rw [if_neg (by omega)]
          rfl
        rw [e1]
        simp only
        rw [show ∀ ms mp, E'.obj ms mp (toyParams ms mp) = .ok (val (ms + mp)) from
          fun ms mp => toyEnv_obj .pickOne val ms mp]
        exact ⟨_, rfl⟩
      rw [show List.range (2 + 3) = [0, 1, 2, 3, 4] from rfl]
      show E'.findBestLoop 4 1 0 ps 2 [0, 1, 2, 3, 4] _ = _
      obtain ⟨a0, h0⟩ := go 0 (by omega) [1, 2, 3, 4] (XR.fin 1e10, none, false)
      obtain ⟨a1, h1⟩ := go 1 (by omega) [2, 3, 4] a0
      obtain ⟨a2, h2⟩ := go 2 (by omega) [3, 4] a1
      obtain ⟨a3, h3⟩ := go 3 (by omega) [4] a2
      rw [h0, h1, h2, h3]
      unfold GEnv.findBestLoop
      rw [List.getElem?_eq_getElem (show 4 < ps.length by omega)]
      rfl
    rw [hf]
  have h0 : E'.start GObj.fresh (XR.fin 2) = .ok (toyStart val (XR.fin 2)) := toy_start .pickOne val _
  unfold GEnv.run
  simp only
  rw [if_neg (by norm_num), h0]
  simp only
  rw [((C52_bound_irrelevant E' GObj.fresh o (XR.fin 2) _ h0).2 _).mpr
    ⟨4, s4, hr, hcont 4 (by omega) fk, hstep⟩]

end BFit
