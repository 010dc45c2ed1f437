import Verif.Model.ExitText
import Verif.Spec.ExitText
import Verif.Lemmas.PrintText
import Verif.Props.GreedyExit

/-! # C143: the text of `exit_information` -/

namespace BFit

open Classical

noncomputable section

/-! ### the texts have one reading -/

/-- A text for a whole number has no letter. -/
theorem IntText.no_letter {w : Str} {n : ℤ} (h : IntText w n) : 'a' ∉ w := by
  obtain ⟨a, neg, d, b, rfl, ha, hb, -, hd, -⟩ := h
  have hw : ¬ White 'a' := by unfold White whiteCodes; decide
  intro hm
  rcases List.mem_append.mp hm with h | h
  · exact hw (ha _ h)
  rcases List.mem_append.mp h with h | h
  · cases neg <;> simp at h
  rcases List.mem_append.mp h with h | h
  · exact absurd (hd _ h) (by decide)
  · exact hw (hb _ h)

theorem split_unique {c : Char} {u u' v v' : Str} (hu : c ∉ u) (hu' : c ∉ u')
    (h : u ++ c :: v = u' ++ c :: v') : u = u' ∧ v = v' := by
  induction u generalizing u' with
  | nil =>
    cases u' with
    | nil => simpa using h
    | cons a u' =>
      simp only [List.nil_append, List.cons_append, List.cons.injEq] at h
      exact absurd (h.1 ▸ List.mem_cons_self) hu'
  | cons a u ih =>
    cases u' with
    | nil =>
      simp only [List.nil_append, List.cons_append, List.cons.injEq] at h
      exact absurd (h.1 ▸ List.mem_cons_self) hu
    | cons a' u' =>
      simp only [List.cons_append, List.cons.injEq] at h
      obtain ⟨h1, h2⟩ := h
      obtain ⟨h3, h4⟩ := ih (fun hm => hu (List.mem_cons_of_mem _ hm)) (fun hm => hu' (List.mem_cons_of_mem _ hm)) h2
      exact ⟨by rw [h1, h3], h4⟩

/-- **C143.**  No text has two meanings: the numbers in a text are determined by it (for the texts of floats if they
have no blanks), and a text about failing rounds, the maximum or convergence is none of the other kinds. -/
theorem C143_one_reading (w : Str) :
    (∀ a b a' b', NotBestText w a b → NotBestText w a' b' → a = a' ∧ b = b') ∧
    (∀ n n', MaxText w n → MaxText w n' → n = n') ∧
    (∀ d t d' t', ' ' ∉ d → ' ' ∉ d' → EpsText w d t → EpsText w d' t' → d = d' ∧ t = t') ∧
    (∀ a b n, NotBestText w a b → ¬ MaxText w n) ∧ (∀ a b d t, NotBestText w a b → ¬ EpsText w d t) ∧
    (∀ n d t, MaxText w n → ¬ EpsText w d t) := by
  refine ⟨?_, ?_, ?_, ?_, ?_, ?_⟩
  · rintro a b a' b' ⟨u, v, rfl, h1, h2⟩ ⟨u', v', h, h3, h4⟩
    have h := List.append_cancel_left h
    have e : ∀ x y : Str, x ++ (chars! " and p-type " ++ y) = (x ++ [' ']) ++ 'a' :: (chars! "nd p-type " ++ y) := by
      intro x y; rw [List.append_assoc]; rfl
    rw [e, e] at h
    obtain ⟨h5, h6⟩ := split_unique (by simpa using h1.no_letter) (by simpa using h3.no_letter) h
    have h5 := List.append_cancel_right h5
    have h6 := List.append_cancel_left h6
    subst h5 h6
    exact ⟨h1.unique h3, h2.unique h4⟩
  · rintro n n' ⟨u, rfl, h1⟩ ⟨u', h, h2⟩
    have h := List.append_cancel_left h
    subst h
    exact h1.unique h2
  · rintro d t d' t' hd hd' h h'
    unfold EpsText at h h'
    rw [h] at h'
    have h' := List.append_cancel_left h'
    obtain ⟨h1, h2⟩ := split_unique (c := ' ') (v := chars! "<= " ++ t) (v' := chars! "<= " ++ t') hd hd' h'
    exact ⟨h1, List.append_cancel_left h2⟩
  · rintro a b n ⟨u, v, rfl, -⟩ ⟨u', h, -⟩
    injection h with h
    exact absurd h (by decide)
  · rintro a b d t ⟨u, v, rfl, -⟩ h
    injection h with h
    exact absurd h (by decide)
  · rintro n d t ⟨u, rfl, -⟩ h
    injection h with h
    exact absurd h (by decide)

/-! ### the text of a run -/

theorem fmtD_text (n : ℤ) : IntText (fmtD n) n := by simpa [center] using fmtD_int n 0

theorem fmtD_text_pad (n : ℤ) : IntText (chars! "  " ++ fmtD n) n := by
  obtain ⟨a, neg, d, b, h1, h2, h3⟩ := fmtD_text n
  refine ⟨chars! "  " ++ a, neg, d, b, by rw [h1, List.append_assoc], ?_, h3⟩
  intro c hc
  rcases List.mem_append.mp hc with hc | hc
  · have : c = ' ' := by
      rcases List.mem_cons.mp hc with h | h
      · exact h
      · simpa using h
    subst this
    unfold White whiteCodes; decide
  · exact h2 c hc

/-- The end of a run raises with the text exactly as without it. -/
theorem exitText_error (str : XR → Str) (o : GOpts) (s : GState) :
    (∃ w info, s.exitText str o = .ok w ∧ (if s.redum = 5 then (.ok ExitInfo.notBestChoice : Py ExitInfo)
        else finalExitInfo s.numbFuncs o.maxFuncs s.best s.prev o.dThr) = .ok info) ∨
    ∃ e, s.exitText str o = .error e ∧ (if s.redum = 5 then (.ok ExitInfo.notBestChoice : Py ExitInfo)
        else finalExitInfo s.numbFuncs o.maxFuncs s.best s.prev o.dThr) = .error e := by
  unfold GState.exitText finalExitText finalExitInfo raise
  by_cases h1 : s.redum = 5
  · rw [if_pos h1, if_pos h1]; exact .inl ⟨_, _, rfl, rfl⟩
  rw [if_neg h1, if_neg h1]
  by_cases h2 : ¬ s.numbFuncs < o.maxFuncs - 1
  · rw [if_pos h2, if_pos h2]; exact .inl ⟨_, _, rfl, rfl⟩
  rw [if_neg h2, if_neg h2]
  by_cases h3 : (s.best - s.prev).abs < o.dThr
  · rw [if_pos h3, if_pos h3]; exact .inl ⟨_, _, rfl, rfl⟩
  · rw [if_neg h3, if_neg h3]; exact .inr ⟨_, rfl, rfl⟩

theorem finishText_eq (str : XR → Str) (E : GEnv) (o : GOpts) (s : GState) :
    (∀ e, E.finishText str o s = .error e ↔ E.finish o s = .error e) ∧
    ∀ r ob, E.finish o s = .ok (r, ob) → ∃ w, s.exitText str o = .ok w ∧ E.finishText str o s = .ok (r, w, ob) := by
  unfold GEnv.finishText
  rcases exitText_error str o s with ⟨w, info, h1, h2⟩ | ⟨e, h1, h2⟩
  · rw [h1]
    simp only
    cases h : E.finish o s with
    | error e => exact ⟨fun e' => by simp, fun r ob h => absurd h (by simp)⟩
    | ok p => exact ⟨fun e' => by simp, fun r ob h' => ⟨w, rfl, by injection h' with h'; rw [h']⟩⟩
  · have h3 : E.finish o s = .error e := by
      unfold GEnv.finish
      simp only
      rw [h2]
    rw [h1, h3]
    exact ⟨fun e' => by simp, fun r ob h => absurd h (by simp)⟩

/-- **C143.**  With its text a run raises the same errors and returns the same result as `GEnv.run`. -/
theorem C143_errors (str : XR → Str) (E : GEnv) (ob : GObj) (factor : PyObj) (o : GOpts) :
    (∀ e, E.runText str ob factor o = .error e ↔ E.run ob factor o = .error e) ∧
    ∀ r ob', E.run ob factor o = .ok (r, ob') ↔ ∃ w, E.runText str ob factor o = .ok (r, w, ob') := by
  have key : (∀ e, E.runText str ob factor o = .error e ↔ E.run ob factor o = .error e) ∧
      ∀ r ob', E.run ob factor o = .ok (r, ob') → ∃ w, E.runText str ob factor o = .ok (r, w, ob') := by
    unfold GEnv.runText GEnv.run
    cases factor with
    | float f =>
      simp only
      split_ifs
      · exact ⟨fun e => by simp [raise], fun r ob h => absurd h (by simp [raise])⟩
      · cases E.start ob f with
        | error e => exact ⟨fun e => by simp, fun r ob h => absurd h (by simp)⟩
        | ok s =>
          simp only
          cases E.loop o f (5 * (o.maxFuncs - 1).toNat) s with
          | error e => exact ⟨fun e => by simp, fun r ob h => absurd h (by simp)⟩
          | ok s' =>
            simp only
            obtain ⟨h1, h2⟩ := finishText_eq str E o s'
            exact ⟨h1, fun r ob h => let ⟨w, _, h⟩ := h2 r ob h; ⟨w, h⟩⟩
    | _ => exact ⟨fun e => by simp [raise], fun r ob h => absurd h (by simp [raise])⟩
  refine ⟨key.1, fun r ob' => ⟨key.2 r ob', ?_⟩⟩
  rintro ⟨w, h⟩
  cases h' : E.run ob factor o with
  | error e => rw [(key.1 e).mpr h'] at h; exact absurd h (by simp)
  | ok p =>
    obtain ⟨r', ob''⟩ := p
    obtain ⟨w', h2⟩ := key.2 r' ob'' h'
    rw [h] at h2
    injection h2 with h2
    injection h2 with h3 h4
    injection h4 with h4 h5
    rw [h3, h5]

theorem not_abs_sub_pinf_lt (v t : XR) : ¬ (v - XR.pinf).abs < t := by
  cases v <;> cases t <;> exact id

/-- A successful run with its text: the start, the rounds, the end. -/
theorem runText_ok {str : XR → Str} {E : GEnv} {ob : GObj} {factor : PyObj} {o : GOpts} {r : GResult} {w : Str}
    {ob' : GObj} (h : E.runText str ob factor o = .ok (r, w, ob')) :
    ∃ f s0 n s, E.start ob f = .ok s0 ∧ Rounds E o f s0 n s ∧ s.exitText str o = .ok w ∧
      E.finish o s = .ok (r, ob') := by
  unfold GEnv.runText at h
  cases factor with
  | float f =>
    simp only at h
    split at h
    · exact absurd h (by simp [raise])
    · cases hs : E.start ob f with
      | error e => rw [hs] at h; exact absurd h (by simp)
      | ok s0 =>
        rw [hs] at h
        simp only at h
        cases hl : E.loop o f (5 * (o.maxFuncs - 1).toNat) s0 with
        | error e => rw [hl] at h; exact absurd h (by simp)
        | ok s =>
          rw [hl] at h
          simp only at h
          obtain ⟨g, err, v, _, _, _, hs0⟩ := start_ok hs
          have hb : 5 * o.maxFuncs ≤ 5 * s0.numbFuncs + s0.redum + (5 * (o.maxFuncs - 1).toNat : ℕ) := by
            rw [hs0]; push_cast; omega
          obtain ⟨n, h1, h2⟩ := (loop_ok_iff _ _ _ hb).mp hl
          refine ⟨f, s0, n, s, hs, h1, ?_⟩
          unfold GEnv.finishText at h
          cases hw : s.exitText str o with
          | error e => rw [hw] at h; exact absurd h (by simp)
          | ok w' =>
            rw [hw] at h
            simp only at h
            cases hf : E.finish o s with
            | error e => rw [hf] at h; exact absurd h (by simp)
            | ok p =>
              rw [hf] at h
              obtain ⟨r', ob''⟩ := p
              simp only [Except.ok.injEq, Prod.mk.injEq] at h
              obtain ⟨rfl, rfl, rfl⟩ := h
              exact ⟨rfl, rfl⟩
  | _ => exact absurd h (by simp [raise])

theorem sub_of_abs_lt {a b t : XR} (hle : b ≤ a) (h : (b - a).abs < t) :
    ∃ y : ℝ, b - a = .fin y ∧ y ≤ 0 ∧ XR.fin |y| < t := by
  cases a with
  | fin x =>
    cases b with
    | fin z => exact ⟨z - x, rfl, sub_nonpos.mpr hle, h⟩
    | _ => revert h; cases t <;> exact fun h => absurd h id
  | _ => cases b <;> cases t <;> exact absurd h id

/-- **C143.**  The text of a successful run:
* about failing rounds: it shows the returned counts of s-type and p-type functions;
* about the maximum: it shows the counts of the run, which are the returned counts less those of the object before,
  plus one (for a new object the number of functions), and this is at least `max_numb_funcs - 1`;
* about convergence: it shows a difference of the objectives of the last two parameter sets, of which the second is
  the returned `fun`, and the threshold; the difference is not positive and its absolute value is below the
  threshold.  In particular at least one function was added. -/
theorem C143_text (str : XR → Str) (E : GEnv) (hE : E.SizeChecked) (ob : GObj) (hms : ob.modelS = ob.numS)
    (hmp : ob.modelP = ob.numP) (factor : PyObj) (o : GOpts) (r : GResult) (w : Str) (ob' : GObj)
    (h : E.runText str ob factor o = .ok (r, w, ob')) :
    (r.exitInformation = .notBestChoice ∧ NotBestText w r.numS r.numP) ∨
    (r.exitInformation = .maxReached ∧ ∃ n : ℤ, MaxText w n ∧ n = r.numS + r.numP + 1 - (ob.numS + ob.numP) ∧
      o.maxFuncs - 1 ≤ n) ∨
    (r.exitInformation = .epsilon ∧ ∃ (pre : List (List XR)) (p q : List XR) (a b na nb : ℕ) (x : XR) (y : ℝ),
      EpsText w (str (.fin y)) (str o.dThr) ∧ r.parametersIteration = pre ++ [p, q] ∧
      E.obj na nb p = .ok x ∧ E.obj a b q = .ok r.fun_ ∧ a = r.numS ∧ b = r.numP ∧ na + nb < a + b ∧
      r.fun_ - x = .fin y ∧ y ≤ 0 ∧ XR.fin |y| < o.dThr) := by
  obtain ⟨f, s0, n, s, hs, hr, hw, hf⟩ := runText_ok h
  obtain ⟨hist, last, H⟩ := history_rounds hs hms hmp hr
  obtain ⟨info, v, hinfo, hv, _, hres⟩ := finish_ok hf
  have hS : r.numS = s.numS := by rw [hres]
  have hP : r.numP = s.numP := by rw [hres]
  have hI : r.parametersIteration = s.paramsIter := by rw [hres]
  have hX : r.exitInformation = info := by rw [hres]
  have hF : r.fun_ = v := by rw [hres]
  unfold GState.exitText at hw
  by_cases h1 : s.redum = 5
  · rw [if_pos h1] at hw hinfo
    injection hw with hw
    injection hinfo with hinfo
    refine .inl ⟨by rw [hX, hinfo], _, _, ?_, fmtD_text _, fmtD_text _⟩
    rw [← hw, hS, hP]
    rfl
  rw [if_neg h1] at hw hinfo
  unfold finalExitText at hw
  unfold finalExitInfo at hinfo
  by_cases h2 : ¬ s.numbFuncs < o.maxFuncs - 1
  · rw [if_pos h2] at hw hinfo
    injection hw with hw
    injection hinfo with hinfo
    refine .inr (.inl ⟨by rw [hX, hinfo], s.numbFuncs, ⟨_, ?_, fmtD_text_pad _⟩, ?_, by omega⟩)
    · rw [← hw]; rfl
    · have := H.count
      rw [hS, hP]; omega
  rw [if_neg h2] at hw hinfo
  by_cases h3 : (s.best - s.prev).abs < o.dThr
  swap
  · rw [if_neg h3] at hw; exact absurd hw (by simp [raise])
  rw [if_pos h3] at hw hinfo
  injection hw with hw
  injection hinfo with hinfo
  have hlastD : s.paramsIter.getLastD [] = last.params := by
    rw [← H.params, List.getLastD_eq_getLast?, List.getLast?_map, H.isLast]; rfl
  rw [hlastD] at hv
  have hvl := (H.valid last (List.mem_of_getLast? H.isLast)).1
  have l1 := hE _ _ _ _ hv
  have l2 := hE _ _ _ _ hvl
  have a1 := H.lastS
  have a2 := H.lastP
  rw [H.modelS, H.modelP] at l1
  have e1 : last.ns = s.numS := by omega
  have e2 : last.np = s.numP := by omega
  have hvv : v = last.value := by
    rw [e1, e2] at hvl
    rw [H.modelS, H.modelP, hvl] at hv
    injection hv with hv
    exact hv.symm
  have hsplit : hist = hist.dropLast ++ [last] := by
    rcases List.eq_nil_or_concat hist with h | ⟨L, b, h⟩
    · have := H.isLast; rw [h] at this; exact absurd this (by simp)
    · have := H.isLast
      rw [h] at this ⊢
      simp at this
      simp [this]
  have hpv := H.prevValue
  rcases List.eq_nil_or_concat hist.dropLast with hL | ⟨L, b, hL⟩
  · rw [hL] at hpv
    rw [show s.prev = XR.pinf from hpv] at h3
    exact absurd h3 (not_abs_sub_pinf_lt _ _)
  rw [hL] at hpv
  have hpv' : s.prev = b.value := by simpa using hpv
  have hh : hist = L ++ [b, last] := by rw [hsplit, hL]; simp
  have hb : b ∈ hist := by rw [hh]; simp
  have hpair : ∀ {R : Accepted → Accepted → Prop}, hist.Pairwise R → R b last := by
    intro R hR
    rw [hh, List.pairwise_append] at hR
    have := hR.2.1
    simp only [List.pairwise_cons] at this
    exact this.1 last (by simp)
  have hle := hpair H.noWorse
  have hgr := (hpair H.grows).2.2
  rw [hpv', ← H.lastValue] at h3 hw
  obtain ⟨y, hy1, hy2, hy3⟩ := sub_of_abs_lt hle h3
  refine .inr (.inr ⟨by rw [hX, hinfo], L.map Accepted.params, b.params, last.params, last.ns, last.np, b.ns, b.np,
    b.value, y, ?_, ?_, (H.valid b hb).1, ?_, by rw [e1, hS], by rw [e2, hP], hgr, ?_, hy2, hy3⟩)
  · unfold EpsText
    rw [← hw, hy1]
  · rw [hI, ← H.params, hh]; simp
  · rw [hF, hvv]; exact (H.valid last (List.mem_of_getLast? H.isLast)).1
  · rw [hF, hvv, hy1]

/-! ### examples: all three texts occur -/

theorem toy_text (str : XR → Str) (c : Choice) (val : ℕ → XR) (o : GOpts) (r : GResult) (ob' : GObj)
    (h : (toyEnv c val).run GObj.fresh (.float (XR.fin 2)) o = .ok (r, ob')) :
    ∃ w, (toyEnv c val).runText str GObj.fresh (.float (XR.fin 2)) o = .ok (r, w, ob') :=
  ((C143_errors str _ _ _ _).2 r ob').mp h

/-- Five failing rounds with one s-type function. -/
example (str : XR → Str) : ∃ r w ob', (toyEnv .pickOne (fun n => XR.fin (if n = 1 then 1 else 2))).runText str
      GObj.fresh (.float (XR.fin 2)) ⟨XR.fin 1e-8, 30, none⟩ = .ok (r, w, ob') ∧ NotBestText w 1 0 := by
  obtain ⟨w, h⟩ := toy_text str _ _ _ _ _
    (toy_five_failures .pickOne 1 2 1e-8 30 (by norm_num) (by norm_num) (by norm_num))
  refine ⟨_, w, _, h, ?_⟩
  rcases C143_text str _ (toyEnv_sizeChecked .pickOne _) _ rfl rfl _ _ _ _ _ h with ⟨_, h⟩ | ⟨h, _⟩ | ⟨h, _⟩
  · exact h
  · exact absurd h (by simp)
  · exact absurd h (by simp)

/-- The maximum: two functions are shown. -/
example (str : XR → Str) : ∃ r w ob', (toyEnv .pickOne (fun n => XR.fin (if n = 1 then 1 else 1 / 2))).runText str
      GObj.fresh (.float (XR.fin 2)) ⟨XR.fin 1e-8, 2, none⟩ = .ok (r, w, ob') ∧ MaxText w 2 := by
  obtain ⟨w, h⟩ := toy_text str _ _ _ _ _ (toy_one_round .pickOne 1 (1 / 2) 1e-8 2 (by norm_num) (by norm_num)
    (by norm_num) (.inl (by decide)) (.inl (by decide)))
  refine ⟨_, w, _, h, ?_⟩
  rcases C143_text str _ (toyEnv_sizeChecked .pickOne _) _ rfl rfl _ _ _ _ _ h with ⟨h, _⟩ | ⟨_, n, h, h', _⟩ | ⟨h, _⟩
  · exact absurd h (by simp [Choice.inc])
  · have : n = 2 := by rw [h']; simp [Choice.inc, GObj.fresh]
    rwa [this] at h
  · exact absurd h (by simp [Choice.inc])

/-- Convergence from 1 to 1/2 below the threshold 1: the text shows -1/2 and 1. -/
example (str : XR → Str) : ∃ r w ob', (toyEnv .pickOne (fun n => XR.fin (if n = 1 then 1 else 1 / 2))).runText str
      GObj.fresh (.float (XR.fin 2)) ⟨XR.fin 1, 30, none⟩ = .ok (r, w, ob') ∧
      EpsText w (str (.fin (-(1 / 2)))) (str (.fin 1)) := by
  obtain ⟨w, h⟩ := toy_text str _ _ _ _ _ (toy_one_round .pickOne 1 (1 / 2) 1 30 (by norm_num) (by norm_num)
    (by norm_num) (.inr (by norm_num)) (.inr (by norm_num)))
  refine ⟨_, w, _, h, ?_⟩
  rcases C143_text str _ (toyEnv_sizeChecked .pickOne _) _ rfl rfl _ _ _ _ _ h with ⟨h, _⟩ | ⟨h, _⟩ |
    ⟨_, pre, p, q, a, b, na, nb, x, y, h1, h2, h3, h4, ha, hb, hlt, h5, h6, _⟩
  · exact absurd h (by simp [Choice.inc])
  · exact absurd h (by simp [Choice.inc])
  · have hp : p = toyParams 1 0 := by
      have h2 := congrArg (fun l => l[l.length - 2]?) h2
      simpa using h2.symm
    have hl := toyEnv_sizeChecked .pickOne _ _ _ _ _ h3
    rw [hp, toyParams_length] at hl
    have hx : x = .fin 1 := by
      have h3 : (if p.length = 2 * (na + nb) then (.ok (XR.fin (if na + nb = 1 then 1 else 1 / 2)) : Py XR)
        else raise .valueError) = .ok x := h3
      rw [hp, toyParams_length, if_pos (by omega), if_pos (by omega)] at h3
      injection h3 with h3
      exact h3.symm
    rw [hx] at h5
    injection h5 with h5
    rw [← h5] at h1
    norm_num at h1
    exact h1

end
end BFit
