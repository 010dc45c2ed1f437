import Verif.Lemmas.Config

/-! Property C69: electron configurations. -/

namespace BFit

open Classical

noncomputable section

theorem mem_allOrbs (o : Orb) : o ∈ allOrbs ↔ o.valid := by
  obtain ⟨n, s⟩ := o
  unfold allOrbs Orb.valid
  simp only [List.mem_flatMap, List.mem_map, List.mem_range'_1, Orb.mk.injEq]
  constructor
  · rintro ⟨s', _, m, hm, rfl, rfl⟩
    cases s' <;> simp only [Sub.l] at hm ⊢ <;> omega
  · intro h
    refine ⟨s, by cases s <;> simp, n, ?_, rfl, rfl⟩
    cases s <;> simp only [Sub.l] at h ⊢ <;> omega

theorem allOrbs_labels : orbLabels = allOrbs.map Orb.label := by decide

theorem allOrbs_nodup : allOrbs.Nodup := by decide

theorem wf_unique {items : List CfgItem} (h : WfConfig items) {o : Orb} {k k' : ℕ}
    (h1 : CfgItem.orb o k ∈ items) (h2 : CfgItem.orb o k' ∈ items) : k = k' := by
  obtain ⟨-, hn⟩ := h
  induction items with
  | nil => simp at h1
  | cons it items ih =>
    have hmem : ∀ j, CfgItem.orb o j ∈ items → o ∈ items.filterMap CfgItem.orb? := fun j hj =>
      List.mem_filterMap.mpr ⟨_, hj, rfl⟩
    rw [List.mem_cons] at h1 h2
    cases it with
    | shell n c =>
      simp only [reduceCtorEq, false_or] at h1 h2
      exact ih h1 h2 (by simpa [List.filterMap_cons, CfgItem.orb?] using hn)
    | orb o' j =>
      have e' : (CfgItem.orb o' j :: items).filterMap CfgItem.orb? = o' :: items.filterMap CfgItem.orb? := rfl
      rw [e', List.nodup_cons] at hn
      rcases h1 with h1 | h1
      · obtain ⟨rfl, rfl⟩ := CfgItem.orb.inj h1
        rcases h2 with h2 | h2
        · exact (CfgItem.orb.inj h2).2.symm
        · exact absurd (hmem _ h2) hn.1
      · rcases h2 with h2 | h2
        · obtain ⟨rfl, rfl⟩ := CfgItem.orb.inj h2
          exact absurd (hmem _ h1) hn.1
        · exact ih h1 h2 hn.2

theorem wf_split {items : List CfgItem} (h : WfConfig items) {o : Orb} {k : ℕ}
    (h1 : CfgItem.orb o k ∈ items) :
    ∃ pre post, items = pre ++ .orb o k :: post ∧ ∀ it ∈ pre, it.orb? ≠ some o := by
  obtain ⟨pre, post, e⟩ := List.append_of_mem h1
  refine ⟨pre, post, e, fun it hi ho => ?_⟩
  have hn := h.2
  have e' : (CfgItem.orb o k :: post).filterMap CfgItem.orb? = o :: post.filterMap CfgItem.orb? := rfl
  rw [e, List.filterMap_append, e'] at hn
  have := List.disjoint_of_nodup_append hn
  exact this (List.mem_filterMap.mpr ⟨it, hi, ho⟩) (by simp)

theorem orbStep_wf {items : List CfgItem} (h : WfConfig items) (o : Orb) (ho : o.valid)
    (out : Str → ℤ) :
    orbStep (cfgText items) out o.label = .ok (fun x =>
      if x = o.label ∧ ∃ k, CfgItem.orb o k ∈ items then
        (if h : ∃ k, CfgItem.orb o k ∈ items then (h.choose : ℤ) else 0) else out x) := by
  by_cases hk : ∃ k, CfgItem.orb o k ∈ items
  · obtain ⟨pre, post, e, hp⟩ := wf_split h hk.choose_spec
    have := orbStep_some pre post o hk.choose (by rw [← e]; exact h.1) hp out
    rw [← e] at this
    rw [this]
    simp only [hk, and_true, dif_pos]
  · rw [orbStep_none items h.1 o ho (fun it hi hio => ?_) out]
    · simp only [hk, and_false, if_false]
    · cases it with
      | shell n c => simp [CfgItem.orb?] at hio
      | orb o' k =>
        rw [show o' = o from Option.some.inj hio] at hi
        exact hk ⟨k, hi⟩

theorem orbLoop_wf {items : List CfgItem} (h : WfConfig items) (os : List Orb) (hos : ∀ o ∈ os, o.valid)
    (out : Str → ℤ) :
    ∃ out', orbLoop (cfgText items) (os.map Orb.label) out = .ok out' ∧
      ∀ o : Orb, o.valid → out' o.label =
        if o ∈ os ∧ ∃ k, CfgItem.orb o k ∈ items then
          (if h : ∃ k, CfgItem.orb o k ∈ items then (h.choose : ℤ) else 0) else out o.label := by
  induction os generalizing out with
  | nil => exact ⟨out, rfl, fun o _ => by simp⟩
  | cons a os ih =>
    obtain ⟨out', h1, h2⟩ := ih (fun o ho => hos o (by simp [ho]))
      (fun x => if x = a.label ∧ ∃ k, CfgItem.orb a k ∈ items then
        (if h : ∃ k, CfgItem.orb a k ∈ items then (h.choose : ℤ) else 0) else out x)
    refine ⟨out', ?_, fun o ho => ?_⟩
    · rw [List.map_cons, orbLoop, orbStep_wf h a (hos a (by simp))]
      exact h1
    · rw [h2 o ho]
      by_cases hk : ∃ k, CfgItem.orb o k ∈ items
      · by_cases hm : o ∈ os
        · simp only [hm, hk, and_true, if_true, List.mem_cons, or_true]
        · by_cases he : o = a
          · subst he
            simp only [hm, hk, and_true, if_false, List.mem_cons, or_false, if_true]
          · have : o.label ≠ a.label := fun hl => he (Orb.label_inj ho (hos a (by simp)) hl)
            simp only [hm, he, this, false_and, if_false, List.mem_cons, or_false]
      · simp only [hk, and_false, if_false]
        by_cases he : o = a
        · subst he
          simp only [hk, and_false, if_false]
        · have : o.label ≠ a.label := fun hl => he (Orb.label_inj ho (hos a (by simp)) hl)
          simp only [this, false_and, if_false]

/-! ### Shells -/

theorem shellLetter_inj {m n : ℕ} (hm : 1 ≤ m ∧ m ≤ 4) (hn : 1 ≤ n ∧ n ≤ 4)
    (h : shellLetter m = shellLetter n) : m = n := by
  obtain ⟨hm1, hm2⟩ := hm
  obtain ⟨hn1, hn2⟩ := hn
  interval_cases m <;> interval_cases n <;> first | rfl | (exfalso; revert h; decide)

theorem shellLetter_facts (n : ℕ) : shellLetter n ≠ '(' ∧ shellLetter n ≠ ')' ∧
    ∀ s : Sub, shellLetter n ≠ s.letter := by
  unfold shellLetter
  split <;> refine ⟨by decide, by decide, fun s => by cases s <;> decide⟩

theorem shellLetter_not_paren (n k : ℕ) : shellLetter n ∉ paren k := by
  obtain ⟨h1, h2, -⟩ := shellLetter_facts n
  unfold paren
  simp only [List.mem_cons, List.mem_append, List.not_mem_nil, or_false, not_or]
  refine ⟨h1, fun h => ?_, h2⟩
  have := Nat.isDigit_of_mem_toDigits (by norm_num) (by norm_num) h
  rw [shellLetter_not_digit] at this
  exact absurd this (by decide)

theorem shellLetter_mem (items : List CfgItem) (hw : ∀ it ∈ items, it.wf) (n : ℕ) (hn : 1 ≤ n ∧ n ≤ 4) :
    shellLetter n ∈ cfgText items ↔ ∃ c, CfgItem.shell n c ∈ items := by
  unfold cfgText
  rw [List.mem_flatMap]
  constructor
  · rintro ⟨it, hi, hm⟩
    cases it with
    | shell m c =>
      refine ⟨c, ?_⟩
      have : shellLetter n = shellLetter m := by
        cases c with
        | none => simpa [CfgItem.text] using hm
        | some k =>
          simp only [CfgItem.text, List.mem_cons] at hm
          exact hm.resolve_right (shellLetter_not_paren n k)
      rw [shellLetter_inj hn (hw _ hi) this]
      exact hi
    | orb o k =>
      exfalso
      have ho : o.valid := (hw _ hi).1
      simp only [CfgItem.text, Orb.label, List.cons_append, List.nil_append, List.mem_cons] at hm
      rcases hm with hm | hm | hm
      · have := shellLetter_not_digit n
        rw [hm, digitChar_isDigit (by have := ho.2; omega)] at this
        exact absurd this (by decide)
      · exact (shellLetter_facts n).2.2 _ hm
      · exact shellLetter_not_paren n k hm
  · rintro ⟨c, hc⟩
    refine ⟨_, hc, ?_⟩
    cases c <;> simp [CfgItem.text]

theorem shellOcc_wf (items : List CfgItem) (hw : ∀ it ∈ items, it.wf) (o : Orb) (ho : o.valid) :
    shellOcc (cfgText items) o.label =
      if ∃ c, CfgItem.shell o.n c ∈ items then ((2 * (2 * o.sub.l + 1) : ℕ) : ℤ) else 0 := by
  have k1 := shellLetter_mem items hw 1 (by norm_num)
  have k2 := shellLetter_mem items hw 2 (by norm_num)
  have k3 := shellLetter_mem items hw 3 (by norm_num)
  have k4 := shellLetter_mem items hw 4 (by norm_num)
  simp only [shellLetter] at k1 k2 k3 k4
  have k5 : ∀ n, 5 ≤ n → ¬ ∃ c, CfgItem.shell n c ∈ items := by
    rintro n hn ⟨c, hc⟩
    have := (hw _ hc).2
    omega
  have key : ∀ b1 b2 b3 b4 : Bool, ∀ o ∈ allOrbs,
      (let o0 : Str → ℤ := fun _ => 0
       let o1 := if b1 then setOcc o0 "1S" 2 else o0
       let o2 := if b2 then setOcc (setOcc o1 "2S" 2) "2P" 6 else o1
       let o3 := if b3 then setOcc (setOcc (setOcc o2 "3S" 2) "3P" 6) "3D" 10 else o2
       if b4 then setOcc (setOcc (setOcc (setOcc o3 "4S" 2) "4P" 6) "4D" 10) "4F" 14 else o3) o.label =
      if (o.n = 1 ∧ b1) ∨ (o.n = 2 ∧ b2) ∨ (o.n = 3 ∧ b3) ∨ (o.n = 4 ∧ b4) then
        ((2 * (2 * o.sub.l + 1) : ℕ) : ℤ) else 0 := by
    decide +kernel
  have hk := key (decide ('K' ∈ cfgText items)) (decide ('L' ∈ cfgText items))
    (decide ('M' ∈ cfgText items)) (decide ('N' ∈ cfgText items)) o ((mem_allOrbs o).mpr ho)
  simp only [decide_eq_true_eq] at hk
  unfold shellOcc
  rw [hk]
  refine if_congr ?_ rfl rfl
  rw [k1, k2, k3, k4]
  constructor
  · rintro (⟨h, c⟩ | ⟨h, c⟩ | ⟨h, c⟩ | ⟨h, c⟩) <;> rw [h] <;> exact c
  · intro c
    have h5 : o.n < 5 := by
      by_contra hcon
      exact k5 _ (by omega) c
    have h0 : 0 < o.n := by
      have := ho.1
      omega
    have : o.n = 1 ∨ o.n = 2 ∨ o.n = 3 ∨ o.n = 4 := by omega
    rcases this with h | h | h | h <;> rw [h] at c ⊢ <;> simp [c]

/-- The occupations read from a well-formed configuration are the ones it lists, for the orbitals in the
order S, P, D, F; orbitals without electrons are left out. -/
theorem C69_configuration (items : List CfgItem) (h : WfConfig items) :
    configOcc (cfgText items) = .ok ((allOrbs.map fun o => (o.label, (occSpec items o : ℤ))).filter
      fun p => p.2 ≠ 0) := by
  obtain ⟨out, h1, h2⟩ := orbLoop_wf h allOrbs (fun o ho => (mem_allOrbs o).mp ho)
    (shellOcc (cfgText items))
  unfold configOcc
  rw [allOrbs_labels, h1]
  simp only [List.map_map]
  congr 2
  apply List.map_congr_left
  intro o ho
  have hv := (mem_allOrbs o).mp ho
  simp only [Function.comp]
  rw [h2 o hv, shellOcc_wf items h.1 o hv]
  unfold occSpec
  by_cases hk : ∃ k, CfgItem.orb o k ∈ items
  · simp only [ho, hk, and_true, if_true, dif_pos]
  · simp only [hk, and_false, if_false, dif_neg, not_false_eq_true]
    split <;> simp

/-- Number of electrons of a listed orbital. -/
theorem occSpec_listed {items : List CfgItem} (h : WfConfig items) {o : Orb} {k : ℕ}
    (hk : CfgItem.orb o k ∈ items) : occSpec items o = k := by
  have he : ∃ k, CfgItem.orb o k ∈ items := ⟨k, hk⟩
  unfold occSpec
  rw [dif_pos he]
  exact wf_unique h he.choose_spec hk

/-- Number of electrons of the orbitals that are not listed: those of a full shell or none. -/
theorem occSpec_unlisted {items : List CfgItem} {o : Orb} (hk : ∀ k, CfgItem.orb o k ∉ items) :
    ((∃ c, CfgItem.shell o.n c ∈ items) → occSpec items o = 2 * (2 * o.sub.l + 1)) ∧
    ((∀ c, CfgItem.shell o.n c ∉ items) → occSpec items o = 0) := by
  have he : ¬ ∃ k, CfgItem.orb o k ∈ items := fun ⟨k, h⟩ => hk k h
  unfold occSpec
  rw [dif_neg he]
  exact ⟨fun h => if_pos h, fun h => if_neg (fun ⟨c, hc⟩ => h c hc)⟩

/-- The entries of the dictionary: an orbital with a positive number of electrons and that number. -/
theorem C69_entries (items : List CfgItem) (h : WfConfig items) :
    ∃ d, configOcc (cfgText items) = .ok d ∧
      (∀ (o : Orb) (k : ℕ), CfgItem.orb o k ∈ items → k ≠ 0 → (o.label, (k : ℤ)) ∈ d) ∧
      (∀ (o : Orb) c, o.valid → CfgItem.shell o.n c ∈ items → (∀ k, CfgItem.orb o k ∉ items) →
        (o.label, ((2 * (2 * o.sub.l + 1) : ℕ) : ℤ)) ∈ d) ∧
      ∀ x v, (x, v) ∈ d → ∃ o : Orb, o.valid ∧ x = o.label ∧
        ((∃ k : ℕ, CfgItem.orb o k ∈ items ∧ v = k ∧ k ≠ 0) ∨
          (∃ c, CfgItem.shell o.n c ∈ items) ∧ (∀ k, CfgItem.orb o k ∉ items) ∧
            v = ((2 * (2 * o.sub.l + 1) : ℕ) : ℤ)) := by
  refine ⟨_, C69_configuration items h, fun o k hk h0 => ?_, fun o c ho hc hk => ?_, fun x v hx => ?_⟩
  · rw [List.mem_filter, List.mem_map]
    refine ⟨⟨o, (mem_allOrbs o).mpr (h.1 _ hk).1, by rw [occSpec_listed h hk]⟩, ?_⟩
    simpa using h0
  · rw [List.mem_filter, List.mem_map]
    refine ⟨⟨o, (mem_allOrbs o).mpr ho, by rw [(occSpec_unlisted hk).1 ⟨c, hc⟩]⟩, ?_⟩
    simp
    omega
  · rw [List.mem_filter, List.mem_map] at hx
    obtain ⟨⟨o, ho, e⟩, h0⟩ := hx
    obtain ⟨rfl, rfl⟩ := Prod.mk.inj e
    refine ⟨o, (mem_allOrbs o).mp ho, rfl, ?_⟩
    by_cases hk : ∃ k, CfgItem.orb o k ∈ items
    · obtain ⟨k, hk⟩ := hk
      left
      rw [occSpec_listed h hk] at h0 ⊢
      exact ⟨k, hk, rfl, by simpa using h0⟩
    · have hk' : ∀ k, CfgItem.orb o k ∉ items := fun k hh => hk ⟨k, hh⟩
      right
      by_cases hc : ∃ c, CfgItem.shell o.n c ∈ items
      · rw [(occSpec_unlisted hk').1 hc]
        exact ⟨hc, hk', rfl⟩
      · exfalso
        rw [(occSpec_unlisted hk').2 (fun c h => hc ⟨c, h⟩)] at h0
        simp at h0

/-- The configuration of silver in `data/neutral/ag.slater`. -/
def agConfig : List CfgItem :=
  [.shell 1 (some 2), .shell 2 (some 8), .shell 3 (some 18), .orb ⟨4, .S⟩ 2, .orb ⟨4, .P⟩ 6, .orb ⟨5, .S⟩ 1,
    .orb ⟨4, .D⟩ 10]

example : cfgText agConfig = "K(2)L(8)M(18)4S(2)4P(6)5S(1)4D(10)".toList ∧ WfConfig agConfig := by
  refine ⟨by decide +kernel, ?_, by decide⟩
  simp [agConfig, CfgItem.wf, Orb.valid, Sub.l]

/-! ### Heavy elements -/

theorem findSub_absent (c : Char) (p s : Str) (h : c ∉ s) : findSub (c :: p) s = none := by
  induction s with
  | nil => rfl
  | cons x s ih =>
    rw [List.mem_cons, not_or] at h
    rw [findSub, ih h.2, if_neg]
    · rfl
    · rw [List.isPrefixOf_cons_cons, Bool.and_eq_true, not_and]
      intro hx
      exact absurd (beq_iff_eq.mp hx) h.1

theorem bracket_not_mem (items : List CfgItem) (hw : ∀ it ∈ items, it.wf) : '[' ∉ cfgText items := by
  unfold cfgText
  rw [List.mem_flatMap]
  rintro ⟨it, hi, hm⟩
  have hp : ∀ k, '[' ∉ paren k := by
    intro k h
    unfold paren at h
    simp only [List.mem_cons, List.mem_append, List.not_mem_nil, or_false] at h
    rcases h with h | h | h
    · revert h; decide
    · have := Nat.isDigit_of_mem_toDigits (by norm_num) (by norm_num) h
      revert this; decide
    · revert h; decide
  have hs : ∀ n, '[' ≠ shellLetter n := by
    intro n
    unfold shellLetter
    split <;> decide
  cases it with
  | shell n c =>
    cases c with
    | none => exact hs n (by simpa [CfgItem.text] using hm)
    | some k =>
      simp only [CfgItem.text, List.mem_cons] at hm
      exact hm.elim (hs n) (hp k)
  | orb o k =>
    have ho : o.valid := (hw _ hi).1
    simp only [CfgItem.text, Orb.label, List.cons_append, List.nil_append, List.mem_cons] at hm
    rcases hm with hm | hm | hm
    · have := digitChar_isDigit (a := o.n) (by have := ho.2; omega)
      rw [← hm] at this
      revert this; decide
    · revert hm
      cases o.sub <;> decide
    · exact hp k hm

theorem cfgText_append (a b : List CfgItem) : cfgText (a ++ b) = cfgText a ++ cfgText b := by
  simp [cfgText]

theorem sum_filter_ne_zero (l : List (Str × ℤ)) :
    ((l.filter fun p => p.2 ≠ 0).map Prod.snd).sum = (l.map Prod.snd).sum := by
  induction l with
  | nil => rfl
  | cons p l ih =>
    by_cases h : p.2 = 0
    · simp_all
    · simp_all

theorem electrons_of (items : List CfgItem) (h : WfConfig items) (n : ℕ)
    (hn : (match configOcc (cfgText items) with
      | .ok d => (d.map Prod.snd).sum
      | .error _ => -1) = (n : ℤ)) : (allOrbs.map (occSpec items)).sum = n := by
  rw [C69_configuration items h] at hn
  simp only at hn
  rw [sum_filter_ne_zero, List.map_map] at hn
  have e : (allOrbs.map (occSpec items)).sum = (n : ℤ) := by
    rw [← hn, Nat.cast_list_sum, List.map_map]
    rfl
  exact_mod_cast e

/-- The abbreviations `[XE]` and `[RN]` of the heavy elements stand for the configurations of xenon with 54
and of radon with 86 electrons. -/
theorem C69_cores (items : List CfgItem) (hw : ∀ it ∈ items, it.wf) :
    heavyConfig ("[XE]".toList ++ cfgText items) = .ok (cfgText (xeItems ++ items)) ∧
    heavyConfig ("[RN]".toList ++ cfgText items) = .ok (cfgText (rnItems ++ items)) ∧
    (allOrbs.map (occSpec xeItems)).sum = 54 ∧ (allOrbs.map (occSpec rnItems)).sum = 86 := by
  have hb := bracket_not_mem items hw
  have h1 : ∀ p, findSub ('[' :: p) (cfgText items) = none := fun p => findSub_absent '[' p _ hb
  refine ⟨?_, ?_, ?_, ?_⟩
  · have e : splitSecond "[XE]".toList ("[XE]".toList ++ cfgText items) = some (cfgText items) := by
      unfold splitSecond
      rw [show findSub "[XE]".toList ("[XE]".toList ++ cfgText items) = some 0 by simp [findSub]]
      simp only [zero_add, List.drop_left]
      rw [show findSub "[XE]".toList (cfgText items) = none from h1 _]
    unfold heavyConfig
    rw [e, cfgText_append]
    rfl
  · have e0 : splitSecond "[XE]".toList ("[RN]".toList ++ cfgText items) = none := by
      unfold splitSecond
      rw [show findSub "[XE]".toList ("[RN]".toList ++ cfgText items) = none by
        have h2 : findSub ['[', 'X', 'E', ']'] (cfgText items) = none := h1 _
        simp [findSub, h2]]
    have e : splitSecond "[RN]".toList ("[RN]".toList ++ cfgText items) = some (cfgText items) := by
      unfold splitSecond
      rw [show findSub "[RN]".toList ("[RN]".toList ++ cfgText items) = some 0 by simp [findSub]]
      simp only [zero_add, List.drop_left]
      rw [show findSub "[RN]".toList (cfgText items) = none from h1 _]
    unfold heavyConfig
    rw [e0, e, cfgText_append]
    rfl
  · exact electrons_of xeItems (by
      refine ⟨?_, by decide⟩
      simp [xeItems, CfgItem.wf, Orb.valid, Sub.l]) 54 (by decide +kernel)
  · exact electrons_of rnItems (by
      refine ⟨?_, by decide⟩
      simp [rnItems, xeItems, CfgItem.wf, Orb.valid, Sub.l]) 86 (by decide +kernel)

/-- The outer orbitals of lawrencium in `data/neutral/lr.slater`. -/
def lrOuter : List CfgItem := [.orb ⟨7, .S⟩ 2, .orb ⟨6, .D⟩ 1, .orb ⟨5, .F⟩ 14]

example : cfgText lrOuter = "7S(2)6D(1)5F(14)".toList ∧ WfConfig (rnItems ++ lrOuter) := by
  refine ⟨by decide +kernel, ?_, by decide⟩
  simp [lrOuter, rnItems, xeItems, CfgItem.wf, Orb.valid, Sub.l]

end
end BFit
