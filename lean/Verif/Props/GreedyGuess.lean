import Verif.Props.GreedyExit

/-! Property C91: where the accepted parameters of a greedy run come from. -/

namespace BFit

open Classical

noncomputable section

/-- Number of functions a strategy adds per round. -/
def addedFuncs : Choice → ℕ
  | .pickOne => 1
  | .pickTwo => 2
  | .pickTwoLoseOne => 1

/-- Guesses for the functions of one type. -/
def TypeGuess (c : Choice) (k : XR) (cs es x : List XR) : Prop :=
  match c with
  | .pickOne => x ∈ getNextChoices k cs es (XR.fin 100)
  | .pickTwo => x ∈ getTwoNextChoices k cs es (XR.fin 100)
  | .pickTwoLoseOne => x ∈ pickTwoLoseOne k cs es (XR.fin 100)

/-- Guess with more s functions from parameters for `ns` s and `np` p functions: the p functions are kept. -/
def SGuess (E : GEnv) (k : XR) (ns np : ℕ) (params g : List XR) : Prop :=
  ∃ sc pc se pe c e : List XR,
    params = sc ++ (pc ++ (se ++ pe)) ∧ sc.length = ns ∧ pc.length = np ∧ se.length = ns ∧ pe.length = np ∧
    TypeGuess E.choice k sc se (c ++ e) ∧ c.length = ns + addedFuncs E.choice ∧
    e.length = ns + addedFuncs E.choice ∧ g = c ++ (pc ++ (e ++ pe))

/-- Guess with more p functions, in round `t`: the s functions are kept; random numbers in `[0, 1)`, `[1, 10)`
or `[10, 100)` if there are no p functions yet. -/
def PGuess (E : GEnv) (k : XR) (t ns np : ℕ) (params g : List XR) : Prop :=
  ∃ sc pc se pe c e : List XR,
    params = sc ++ (pc ++ (se ++ pe)) ∧ sc.length = ns ∧ pc.length = np ∧ se.length = ns ∧ pe.length = np ∧
    (if np = 0 then ∃ w m b, ((w, m, b) = (0, 1, 0) ∨ (w, m, b) = (1, 9, 1) ∨ (w, m, b) = (2, 90, 10)) ∧
        c ++ e = (List.range (2 * addedFuncs E.choice)).map fun j => XR.fin (E.rnd t w j * m + b)
      else TypeGuess E.choice k pc pe (c ++ e)) ∧
    c.length = np + addedFuncs E.choice ∧ e.length = np + addedFuncs E.choice ∧
    g = sc ++ (c ++ (se ++ e))

/-- `lp` comes out of the quick optimisation of the guess `g`, with objective value `v`. -/
def Tried (E : GEnv) (t ns np : ℕ) (g lp : List XR) (v : XR) : Prop :=
  ∃ i, E.optLocal t i ns np g = .ok lp ∧ E.obj ns np lp = .ok v

/-- Round `t` leads from `a = (ns, np, params)` to `b`: one of the guesses, optimised quickly, then fully; no
other guess of the round has a smaller objective value after the quick optimisation. -/
def RoundOf (E : GEnv) (k : XR) (t : ℕ) (a b : ℕ × ℕ × List XR) : Prop :=
  ∃ g lp v,
    ((b.1 = a.1 + addedFuncs E.choice ∧ b.2.1 = a.2.1 ∧ SGuess E k a.1 a.2.1 a.2.2 g) ∨
      (b.1 = a.1 ∧ b.2.1 = a.2.1 + addedFuncs E.choice ∧ PGuess E k t a.1 a.2.1 a.2.2 g)) ∧
    Tried E t b.1 b.2.1 g lp v ∧ E.optGlobal t b.1 b.2.1 lp = .ok b.2.2 ∧
    (∀ g', SGuess E k a.1 a.2.1 a.2.2 g' →
      ∃ lp' v', Tried E t (a.1 + addedFuncs E.choice) a.2.1 g' lp' v' ∧ ¬ v' < v) ∧
    ∀ g', PGuess E k t a.1 a.2.1 a.2.2 g' →
      ∃ lp' v', Tried E t a.1 (a.2.1 + addedFuncs E.choice) g' lp' v' ∧ ¬ v' < v

/-! ### The lists of guesses -/

theorem inc_eq (c : Choice) : c.inc = addedFuncs c := by cases c <;> rfl

theorem typeGuess_iff (c : Choice) (k : XR) (cs es x : List XR) : TypeGuess c k cs es x ↔ x ∈ c.next k cs es := by
  cases c <;> rfl

theorem next_length {c : Choice} {k : XR} {cs es x : List XR} (h : cs.length = es.length) (he : es ≠ [])
    (hx : x ∈ c.next k cs es) : x.length = 2 * (es.length + addedFuncs c) := by
  cases c with
  | pickOne => exact (C46_sizes k (XR.fin 100) cs es h he).2 x hx
  | pickTwo =>
    obtain ⟨_, _, c, e, rfl, h1, h2, -⟩ := C47_guess k (XR.fin 100) cs es h he x hx
    simp only [List.length_append, addedFuncs]
    omega
  | pickTwoLoseOne => exact (C48_sizes k (XR.fin 100) cs es h he).2 x hx

theorem split_parts {ns np : ℕ} {sc pc se pe : List XR} (h1 : sc.length = ns) (h2 : pc.length = np)
    (h3 : se.length = ns) : splitParams ns np (sc ++ (pc ++ (se ++ pe))) = ⟨sc, se, pc, pe⟩ := by
  subst h1 h2
  have e1 : 2 * sc.length + pc.length = sc.length + (pc.length + se.length) := by omega
  unfold splitParams
  rw [e1]
  congr 1
  · simp
  · rw [List.take_length_add_append, List.take_length_add_append, List.take_left, List.drop_length_add_append,
      List.drop_left]
  · rw [List.take_length_add_append, List.take_left, List.drop_left]
  · rw [List.drop_length_add_append, List.drop_length_add_append, List.drop_left]

theorem exists_parts {ns np : ℕ} {p : List XR} (h : p.length = 2 * (ns + np)) :
    ∃ sc pc se pe : List XR, p = sc ++ (pc ++ (se ++ pe)) ∧ sc.length = ns ∧ pc.length = np ∧ se.length = ns ∧
      pe.length = np := by
  refine ⟨p.take ns, (p.drop ns).take np, ((p.drop ns).drop np).take ns, ((p.drop ns).drop np).drop ns, ?_, ?_, ?_,
    ?_, ?_⟩
  · simp only [List.take_append_drop]
  · rw [List.length_take]
    omega
  · rw [List.length_take, List.length_drop]
    omega
  · rw [List.length_take, List.length_drop, List.length_drop]
    omega
  · rw [List.length_drop, List.length_drop, List.length_drop]
    omega

theorem parts_unique {ns np : ℕ} {sc pc se pe sc' pc' se' pe' : List XR}
    (h : sc ++ (pc ++ (se ++ pe)) = sc' ++ (pc' ++ (se' ++ pe'))) (h1 : sc.length = ns) (h2 : pc.length = np)
    (h3 : se.length = ns) (h1' : sc'.length = ns) (h2' : pc'.length = np) (h3' : se'.length = ns) :
    sc = sc' ∧ pc = pc' ∧ se = se' ∧ pe = pe' := by
  have a := List.append_inj h (h1.trans h1'.symm)
  have b := List.append_inj a.2 (h2.trans h2'.symm)
  have c := List.append_inj b.2 (h3.trans h3'.symm)
  exact ⟨a.1, b.1, c.1, c.2⟩

/-- The s guesses of a round. -/
theorem mem_choicesS {E : GEnv} {s : GState} (hl : s.gparams.length = 2 * (s.numS + s.numP)) (hs : 1 ≤ s.numS)
    (g : List XR) : g ∈ E.choicesS s ↔ SGuess E s.factor s.numS s.numP s.gparams g := by
  obtain ⟨sc, pc, se, pe, hp, h1, h2, h3, h4⟩ := exists_parts hl
  unfold GEnv.choicesS SGuess
  rw [hp, split_parts h1 h2 h3]
  simp only [List.mem_map, inc_eq]
  constructor
  · rintro ⟨x, hx, rfl⟩
    have hx' := next_length (h1.trans h3.symm) (List.ne_nil_of_length_pos (by omega)) hx
    refine ⟨sc, pc, se, pe, x.take (s.numS + addedFuncs E.choice), x.drop (s.numS + addedFuncs E.choice), rfl, h1, h2,
      h3, h4, ?_, ?_, ?_, ?_⟩
    · rw [List.take_append_drop, typeGuess_iff]
      exact hx
    · rw [List.length_take]
      omega
    · rw [List.length_drop]
      omega
    · simp
  · rintro ⟨sc', pc', se', pe', c, e, he, h1', h2', h3', h4', hx, hc, -, rfl⟩
    obtain ⟨rfl, rfl, rfl, rfl⟩ := parts_unique he h1 h2 h3 h1' h2' h3'
    refine ⟨c ++ e, (typeGuess_iff _ _ _ _ _).mp hx, ?_⟩
    rw [← hc, List.take_left, List.drop_left]
    simp

/-- The p guesses of a round. -/
theorem mem_choicesP {E : GEnv} {s : GState} (hl : s.gparams.length = 2 * (s.numS + s.numP)) (g : List XR) :
    g ∈ E.choicesP s ↔ PGuess E s.factor s.round s.numS s.numP s.gparams g := by
  obtain ⟨sc, pc, se, pe, hp, h1, h2, h3, h4⟩ := exists_parts hl
  unfold GEnv.choicesP PGuess
  rw [hp, split_parts h1 h2 h3]
  simp only [List.mem_map, inc_eq]
  constructor
  · rintro ⟨x, hx, rfl⟩
    have hx' : x.length = 2 * (s.numP + addedFuncs E.choice) := by
      split at hx
      · next h0 =>
        simp only [List.mem_cons, List.not_mem_nil, or_false] at hx
        rcases hx with rfl | rfl | rfl <;> simp [GEnv.randVec, inc_eq, h0]
      · rw [← h4]
        exact next_length (h2.trans h4.symm) (List.ne_nil_of_length_pos (by omega)) hx
    refine ⟨sc, pc, se, pe, x.take (s.numP + addedFuncs E.choice), x.drop (s.numP + addedFuncs E.choice), rfl, h1, h2,
      h3, h4, ?_, ?_, ?_, ?_⟩
    · rw [List.take_append_drop]
      split
      · next h0 =>
        rw [if_pos h0] at hx
        simp only [List.mem_cons, List.not_mem_nil, or_false] at hx
        rcases hx with rfl | rfl | rfl
        · exact ⟨0, 1, 0, .inl rfl, by simp [GEnv.randVec, inc_eq]⟩
        · exact ⟨1, 9, 1, .inr (.inl rfl), by simp [GEnv.randVec, inc_eq]⟩
        · exact ⟨2, 90, 10, .inr (.inr rfl), by simp [GEnv.randVec, inc_eq]⟩
      · next h0 =>
        rw [if_neg h0] at hx
        exact (typeGuess_iff _ _ _ _ _).mpr hx
    · rw [List.length_take]
      omega
    · rw [List.length_drop]
      omega
    · simp
  · rintro ⟨sc', pc', se', pe', c, e, he, h1', h2', h3', h4', hx, hc, -, rfl⟩
    obtain ⟨rfl, rfl, rfl, rfl⟩ := parts_unique he h1 h2 h3 h1' h2' h3'
    refine ⟨c ++ e, ?_, ?_⟩
    · split at hx
      · next h0 =>
        rw [if_pos h0]
        obtain ⟨w, m, b, hw, hx⟩ := hx
        rw [hx]
        simp only [GEnv.randVec, inc_eq, List.mem_cons, List.not_mem_nil, or_false]
        rcases hw with hw | hw | hw <;> simp only [Prod.mk.injEq] at hw <;> obtain ⟨rfl, rfl, rfl⟩ := hw
        · exact .inl rfl
        · exact .inr (.inl rfl)
        · exact .inr (.inr rfl)
      · next h0 =>
        rw [if_neg h0]
        exact (typeGuess_iff _ _ _ _ _).mp hx
    · rw [← hc, List.take_left, List.drop_left]
      simp

/-! ### One round -/

theorem findBestLoop_ok {E : GEnv} {t ns np numS : ℕ} {params : List (List XR)} (m a : ℕ)
    (acc r : XR × Option (List XR) × Bool)
    (h : E.findBestLoop t ns np params numS (List.range' a m) acc = .ok r) :
    a + m ≤ max a params.length ∧ ∀ i, a ≤ i → i < a + m → ∃ lp v,
      E.optLocal t i (if i < numS then ns + E.choice.inc else ns)
        (if i < numS then np else np + E.choice.inc) (params.getD i []) = .ok lp ∧
      E.obj (if i < numS then ns + E.choice.inc else ns)
        (if i < numS then np else np + E.choice.inc) lp = .ok v := by
  induction m generalizing a acc with
  | zero => exact ⟨by simp, fun i h1 h2 => by omega⟩
  | succ m ih =>
    rw [List.range'_succ] at h
    unfold GEnv.findBestLoop at h
    cases hp : params[a]? with
    | none => rw [hp] at h; exact absurd h (by simp [raise])
    | some p =>
      rw [hp] at h
      simp only at h
      have hlt : a < params.length := (List.getElem?_eq_some_iff.mp hp).1
      have hget : params.getD a [] = p := by rw [List.getD_eq_getElem?_getD, hp]; rfl
      cases ho : E.optLocal t a (if a < numS then ns + E.choice.inc else ns)
        (if a < numS then np else np + E.choice.inc) p with
      | error e => rw [ho] at h; exact absurd h (by simp)
      | ok lp =>
        rw [ho] at h
        simp only at h
        cases hv : E.obj (if a < numS then ns + E.choice.inc else ns)
          (if a < numS then np else np + E.choice.inc) lp with
        | error e => rw [hv] at h; exact absurd h (by simp)
        | ok v =>
          rw [hv] at h
          simp only at h
          obtain ⟨i1, i2⟩ := ih _ _ h
          refine ⟨by omega, fun i h1 h2 => ?_⟩
          rcases Nat.eq_or_lt_of_le h1 with rfl | h1
          · exact ⟨lp, v, by rw [hget]; exact ho, hv⟩
          · exact i2 i h1 (by omega)

/-- What a completed round has done. -/
theorem step_round {E : GEnv} {o : GOpts} {f : XR} {s s' : GState}
    (hl : s.gparams.length = 2 * (s.numS + s.numP)) (hs : 1 ≤ s.numS) (h : E.step o f s = .ok s') :
    ∃ (isS : Bool) (op : List XR) (w : XR),
      RoundOf E s.factor s.round (s.numS, s.numP, s.gparams)
        (if isS then s.numS + E.choice.inc else s.numS, if isS then s.numP else s.numP + E.choice.inc, op) ∧
      E.obj (if isS then s.numS + E.choice.inc else s.numS) (if isS then s.numP else s.numP + E.choice.inc) op =
        .ok w ∧
      ((roundFails (if isS then s.numS + E.choice.inc else s.numS) (if isS then s.numP else s.numP + E.choice.inc)
          op w s.best ∧ s'.numS = s.numS ∧ s'.numP = s.numP ∧ s'.gparams = s.gparams ∧
          s'.paramsIter = s.paramsIter ∧ s'.factor = s.factor * XR.fin 2 ∧ s'.redum = s.redum + 1 ∧
          s'.round = s.round + 1) ∨
        (w ≤ s.best ∧ s'.numS = (if isS then s.numS + E.choice.inc else s.numS) ∧
          s'.numP = (if isS then s.numP else s.numP + E.choice.inc) ∧ s'.gparams = op ∧
          s'.paramsIter = s.paramsIter ++ [op] ∧ s'.factor = f ∧ s'.redum = 0 ∧ s'.round = s.round + 1 ∧
          s'.best = w) ∨
        (¬ s.best < w ∧ ¬ w ≤ s.best)) := by
  unfold GEnv.step at h
  cases ht : E.totalChoices o s with
  | error e => rw [ht] at h; exact absurd h (by simp)
  | ok total =>
    rw [ht] at h
    simp only at h
    have htot : ∃ ex, total = E.choicesS s ++ E.choicesP s ++ ex := by
      unfold GEnv.totalChoices at ht
      split at ht
      · simp only [Except.ok.injEq] at ht
        exact ⟨[], by rw [← ht]; simp⟩
      · split at ht
        · exact absurd ht (by simp)
        · simp only [Except.ok.injEq] at ht
          exact ⟨_, ht.symm⟩
    obtain ⟨ex, rfl⟩ := htot
    cases hf : E.findBest s.round s.numS s.numP (E.choicesS s ++ E.choicesP s ++ ex) (E.choicesS s).length
      (E.choicesP s).length with
    | error e => rw [hf] at h; exact absurd h (by simp)
    | ok r =>
      rw [hf] at h
      simp only at h
      have hf' := hf
      unfold GEnv.findBest at hf'
      rw [List.range_eq_range'] at hf'
      obtain ⟨-, hall⟩ := findBestLoop_ok _ _ _ _ hf'
      have hall' : ∀ i, ∃ lp v, i < (E.choicesS s).length + (E.choicesP s).length →
          E.optLocal s.round i (if i < (E.choicesS s).length then s.numS + E.choice.inc else s.numS)
            (if i < (E.choicesS s).length then s.numP else s.numP + E.choice.inc)
            ((E.choicesS s ++ E.choicesP s ++ ex).getD i []) = .ok lp ∧
          E.obj (if i < (E.choicesS s).length then s.numS + E.choice.inc else s.numS)
            (if i < (E.choicesS s).length then s.numP else s.numP + E.choice.inc) lp = .ok v := by
        intro i
        by_cases hi : i < (E.choicesS s).length + (E.choicesP s).length
        · obtain ⟨lp, v, h1, h2⟩ := hall i (Nat.zero_le _) (by omega)
          exact ⟨lp, v, fun _ => ⟨h1, h2⟩⟩
        · exact ⟨[], 0, fun h => absurd h hi⟩
      choose lp v hlv using hall'
      have hgetS : ∀ i, i < (E.choicesS s).length →
          (E.choicesS s ++ E.choicesP s ++ ex).getD i [] ∈ E.choicesS s := by
        intro i hi
        rw [List.append_assoc, List.getD_eq_getElem?_getD, List.getElem?_append_left hi, List.getElem?_eq_getElem hi]
        exact List.getElem_mem hi
      have hgetP : ∀ i, ¬ i < (E.choicesS s).length → i < (E.choicesS s).length + (E.choicesP s).length →
          (E.choicesS s ++ E.choicesP s ++ ex).getD i [] ∈ E.choicesP s := by
        intro i hi hi'
        have : i - (E.choicesS s).length < (E.choicesP s).length := by omega
        rw [List.append_assoc, List.getD_eq_getElem?_getD, List.getElem?_append_right (by omega),
          List.getElem?_append_left this, List.getElem?_eq_getElem this]
        exact List.getElem_mem this
      rcases C51_find_best E s.round s.numS s.numP _ _ (E.choicesS s ++ E.choicesP s ++ ex) lp v
        (by simp only [List.length_append]; omega) (fun i hi => (hlv i hi).1) (fun i hi => (hlv i hi).2) with
        ⟨k, k1, k2, k3, k4, k5⟩ | ⟨-, k5⟩
      · rw [k5] at hf
        simp only [Except.ok.injEq] at hf
        subst hf
        simp only at h
        unfold GEnv.finishRound at h
        simp only [decide_eq_true_eq] at h
        obtain ⟨isS, hisS⟩ : ∃ b : Bool, (b = true ↔ k < (E.choicesS s).length) :=
          ⟨decide (k < (E.choicesS s).length), by simp⟩
        simp only [← hisS] at h
        obtain ⟨hk1, hk2⟩ := hlv k k1
        simp only [← hisS] at hk1 hk2
        cases hop : E.optGlobal s.round (if isS = true then s.numS + E.choice.inc else s.numS)
          (if isS = true then s.numP else s.numP + E.choice.inc) (lp k) with
        | error e => rw [hop] at h; exact absurd h (by simp)
        | ok op =>
          rw [hop] at h
          simp only at h
          cases how : E.obj (if isS = true then s.numS + E.choice.inc else s.numS)
            (if isS = true then s.numP else s.numP + E.choice.inc) op with
          | error e => rw [how] at h; exact absurd h (by simp)
          | ok w =>
            rw [how] at h
            simp only at h
            refine ⟨isS, op, w, ?_, how, ?_⟩
            · refine ⟨(E.choicesS s ++ E.choicesP s ++ ex).getD k [], lp k, v k, ?_, ⟨k, hk1, hk2⟩, hop, ?_, ?_⟩
              · cases isS with
                | true =>
                  refine .inl ⟨by rw [← inc_eq]; rfl, rfl, ?_⟩
                  exact (mem_choicesS hl hs _).mp (hgetS k (hisS.mp rfl))
                | false =>
                  refine .inr ⟨rfl, by rw [← inc_eq]; rfl, ?_⟩
                  exact (mem_choicesP hl _).mp (hgetP k (fun hc => by simpa using hisS.mpr hc) k1)
              · intro g' hg'
                obtain ⟨i, hi, rfl⟩ := List.getElem_of_mem ((mem_choicesS hl hs g').mpr hg')
                have hlt : i < (E.choicesS s).length + (E.choicesP s).length := by omega
                obtain ⟨q1, q2⟩ := hlv i hlt
                have hg : (E.choicesS s ++ E.choicesP s ++ ex).getD i [] = (E.choicesS s)[i] := by
                  rw [List.append_assoc, List.getD_eq_getElem?_getD, List.getElem?_append_left hi,
                    List.getElem?_eq_getElem hi]
                  rfl
                rw [hg, if_pos hi, if_pos hi, inc_eq] at q1
                rw [if_pos hi, if_pos hi, inc_eq] at q2
                exact ⟨lp i, v i, ⟨i, q1, q2⟩, k3 i hlt⟩
              · intro g' hg'
                obtain ⟨i, hi, rfl⟩ := List.getElem_of_mem ((mem_choicesP hl g').mpr hg')
                have hlt : (E.choicesS s).length + i < (E.choicesS s).length + (E.choicesP s).length := by omega
                obtain ⟨q1, q2⟩ := hlv _ hlt
                have hn : ¬ (E.choicesS s).length + i < (E.choicesS s).length := by omega
                have hg : (E.choicesS s ++ E.choicesP s ++ ex).getD ((E.choicesS s).length + i) [] =
                    (E.choicesP s)[i] := by
                  rw [List.append_assoc, List.getD_eq_getElem?_getD, List.getElem?_append_right (by omega),
                    Nat.add_sub_cancel_left, List.getElem?_append_left hi, List.getElem?_eq_getElem hi]
                  rfl
                rw [hg, if_neg hn, if_neg hn, inc_eq] at q1
                rw [if_neg hn, if_neg hn, inc_eq] at q2
                exact ⟨_, _, ⟨_, q1, q2⟩, k3 _ hlt⟩
            · by_cases hfail : roundFails (if isS = true then s.numS + E.choice.inc else s.numS)
                (if isS = true then s.numP else s.numP + E.choice.inc) op w s.best
              · rw [if_pos hfail] at h
                simp only [Except.ok.injEq] at h
                refine .inl ⟨hfail, ?_⟩
                rw [← h]
                cases isS <;> simp
              · rw [if_neg hfail] at h
                by_cases hle : w ≤ s.best
                · rw [if_pos hle] at h
                  cases hg : E.gof (if isS = true then s.numS + E.choice.inc else s.numS)
                    (if isS = true then s.numP else s.numP + E.choice.inc) op with
                  | error e => rw [hg] at h; exact absurd h (by simp)
                  | ok err =>
                    rw [hg] at h
                    simp only [Except.ok.injEq] at h
                    refine .inr (.inl ⟨hle, ?_⟩)
                    rw [← h]
                    simp
                · refine .inr (.inr ⟨?_, hle⟩)
                  unfold roundFails at hfail
                  simp only [not_or] at hfail
                  exact hfail.2.2
      · rw [k5] at hf
        simp only [Except.ok.injEq] at hf
        subst hf
        exact absurd h (by simp [GEnv.finishRound, raise])

/-! ### A run -/

/-- The factor after `j` unsuccessful rounds. -/
def doubled (f : XR) : ℕ → XR
  | 0 => f
  | j + 1 => doubled f j * XR.fin 2

/-- Invariant of the loop. -/
structure Prov (E : GEnv) (f : XR) (s : GState) (hist : List (ℕ × ℕ × List XR)) : Prop where
  params : hist.map (fun a => a.2.2) = s.paramsIter
  first : ∃ p, hist.head? = some (1, 0, p) ∧ E.oneFun 1 0 = .ok p
  last : hist.getLast? = some (s.numS, s.numP, s.gparams)
  size : s.gparams.length = 2 * (s.numS + s.numP)
  numS : 1 ≤ s.numS
  factor : s.factor = doubled f s.redum
  value : E.obj s.numS s.numP s.gparams = .ok s.best
  chain : hist.IsChain fun a b => ∃ t j, j < 5 ∧ RoundOf E (doubled f j) t a b

theorem prov_step {E : GEnv} (hE : E.SizeChecked) (hn : ∀ ns np p v, E.obj ns np p = .ok v → ¬ v.IsNan) {o : GOpts}
    {f : XR} {s s' : GState} {hist : List (ℕ × ℕ × List XR)} (H : Prov E f s hist) (hc : s.continues o)
    (h : E.step o f s = .ok s') : ∃ hist', Prov E f s' hist' := by
  obtain ⟨isS, op, w, h1, h2, h3⟩ := step_round H.size H.numS h
  rcases h3 with ⟨-, a1, a2, a3, a4, a5, a6, -⟩ | ⟨-, a1, a2, a3, a4, a5, a6, -, a8⟩ | ⟨a1, a2⟩
  · refine ⟨hist, by rw [a4]; exact H.params, H.first, by rw [a1, a2, a3]; exact H.last,
      by rw [a1, a2, a3]; exact H.size, by rw [a1]; exact H.numS, ?_, ?_, H.chain⟩
    · rw [a5, a6, H.factor]
      rfl
    · rw [a1, a2, a3, H.value]
      have := (step_cases h).1
      rcases this with ⟨_, _, _, _, _, _, _, _, _, b10, _, _⟩ |
        ⟨_, _, _, _, _, _, _, _, _, _, _, _, _, _, _, _, _, b12⟩ | ⟨_, _, _, _, _, _, _, _, _, _, b12⟩
      · rw [b10]
      · omega
      · omega
  · refine ⟨hist ++ [(s'.numS, s'.numP, s'.gparams)], ?_, ?_, by simp, ?_, ?_, ?_, ?_, ?_⟩
    · rw [List.map_append, H.params, a4, a3]
      rfl
    · obtain ⟨p, p1, p2⟩ := H.first
      exact ⟨p, by rw [List.head?_append, p1]; rfl, p2⟩
    · rw [a1, a2, a3]
      exact hE _ _ _ _ h2
    · rw [a1]
      have := H.numS
      split <;> omega
    · rw [a5, a6]
      rfl
    · rw [a1, a2, a3, a8]
      exact h2
    · rw [List.isChain_append]
      refine ⟨H.chain, by simp, ?_⟩
      intro x hx y hy
      rw [H.last] at hx
      simp only [Option.mem_def, Option.some.injEq, List.head?_cons] at hx hy
      subst hx hy
      refine ⟨s.round, s.redum, hc.2.1, ?_⟩
      rw [← H.factor, a1, a2, a3]
      exact h1
  · exfalso
    have n1 := hn _ _ _ _ h2
    have n2 := hn _ _ _ _ H.value
    revert a1 a2 n1 n2
    cases w <;> cases s.best <;> simp [XR.IsNan]

/-- In a successful run with real objective values, every accepted parameter set comes from the one before: a
guess that keeps the functions of one type and extends those of the other type by the strategy of the object is
optimised; among all such guesses none has a smaller objective value after the quick optimisation. -/
theorem C91_rounds (E : GEnv) (hE : E.SizeChecked) (hn : ∀ ns np p v, E.obj ns np p = .ok v → ¬ v.IsNan) (f : XR)
    (o : GOpts) (r : GResult) (ob' : GObj) (h : E.run GObj.fresh (.float f) o = .ok (r, ob')) :
    ∃ hist : List (ℕ × ℕ × List XR),
      hist.map (fun a => a.2.2) = r.parametersIteration ∧
      (∃ p, hist.head? = some (1, 0, p) ∧ E.oneFun 1 0 = .ok p) ∧
      hist.getLast? = some (r.numS, r.numP, r.coeffs ++ r.exps) ∧
      hist.IsChain fun a b => ∃ t j, j < 5 ∧ RoundOf E (doubled f j) t a b := by
  obtain ⟨f', s0, n, s, hf', -, hs, hr, -, hf⟩ := run_ok h
  simp only [PyObj.float.injEq] at hf'
  subst hf'
  have key : ∃ hist, Prov E f s hist := by
    clear hf
    induction hr with
    | refl =>
      obtain ⟨g, err, v, h1, h2, h3, rfl⟩ := start_ok hs
      exact ⟨[(1, 0, g)], rfl, ⟨g, rfl, h1⟩, rfl, hE _ _ _ _ h3, le_rfl, rfl, h3, by simp⟩
    | step _ hc h3 ih =>
      obtain ⟨hist, H⟩ := ih
      exact prov_step hE hn H hc h3
  obtain ⟨hist, H⟩ := key
  obtain ⟨info, v, _, hv, _, hres⟩ := finish_ok hf
  obtain ⟨-, -, h3, -⟩ := C54_consistent E hE _ o r ob' h
  refine ⟨hist, ?_, H.first, ?_, H.chain⟩
  · rw [hres]
    exact H.params
  · have hI : r.parametersIteration = hist.map fun a => a.2.2 := by rw [hres]; exact H.params.symm
    rw [hI, List.getLast?_map, H.last] at h3
    simp only [Option.map_some, Option.some.injEq] at h3
    rw [H.last, ← h3, hres]

/-- A run in which a function is accepted. -/
example : ∃ (E : GEnv) (o : GOpts) (r : GResult) (ob' : GObj), E.SizeChecked ∧
    (∀ ns np p v, E.obj ns np p = .ok v → ¬ v.IsNan) ∧
    E.run GObj.fresh (.float (XR.fin 2)) o = .ok (r, ob') ∧ r.parametersIteration.length = 2 := by
  refine ⟨_, ⟨XR.fin 1, 30, none⟩, _, _, toyEnv_sizeChecked .pickOne _, ?_,
    toy_one_round .pickOne 1 (1 / 2) 1 30 (by norm_num) (by norm_num) (by norm_num) (.inr (by norm_num))
      (.inr (by norm_num)), by simp⟩
  intro ns np p v h
  simp only [toyEnv] at h
  split at h
  · injection h with h
    rw [← h]
    simp [XR.IsNan]
  · exact absurd h (by simp [raise])

end
end BFit
