import Verif.Spec.Parse
import Mathlib.Tactic.IntervalCases

/-! Search for orbital labels in the text of a configuration. -/

namespace BFit

open Classical

noncomputable section

theorem Sub.letter_inj {a b : Sub} (h : a.letter = b.letter) : a = b := by
  cases a <;> cases b <;> first | rfl | (exfalso; revert h; decide)

theorem Sub.letter_not_digit (a : Sub) : a.letter.isDigit = false := by cases a <;> rfl

theorem digitChar_inj {a b : ℕ} (ha : a ≤ 9) (hb : b ≤ 9) (h : Nat.digitChar a = Nat.digitChar b) :
    a = b := by
  interval_cases a <;> interval_cases b <;> first | rfl | (exfalso; revert h; decide)

theorem digitChar_isDigit {a : ℕ} (ha : a ≤ 9) : (Nat.digitChar a).isDigit = true := by
  interval_cases a <;> rfl

theorem Orb.label_inj {a b : Orb} (ha : a.valid) (hb : b.valid) (h : a.label = b.label) : a = b := by
  have h1 := (List.cons.inj h).1
  have h2 := (List.cons.inj (List.cons.inj h).2).1
  have e1 := digitChar_inj (by have := ha.2; omega) (by have := hb.2; omega) h1
  have e2 := Sub.letter_inj h2
  cases a; cases b; simp_all

theorem findSub_skip (d l : Char) (p : Str) (c : Char) (s : Str) (h : c ≠ d ∨ s.head? ≠ some l) :
    findSub (d :: l :: p) (c :: s) = (findSub (d :: l :: p) s).map (· + 1) := by
  rw [findSub, if_neg]
  intro hp
  rw [List.isPrefixOf_cons_cons, Bool.and_eq_true] at hp
  rcases h with h | h
  · exact h (by simpa using (beq_iff_eq.mp hp.1).symm)
  · cases s with
    | nil => simp at hp
    | cons x s =>
      rw [List.isPrefixOf_cons_cons, Bool.and_eq_true] at hp
      apply h
      rw [List.head?_cons, beq_iff_eq.mp hp.2.1]

theorem findSub_skips (d l : Char) (p : Str) (t s : Str)
    (h : ∀ t₁ c t₂, t = t₁ ++ c :: t₂ → c ≠ d ∨ (t₂ ++ s).head? ≠ some l) :
    findSub (d :: l :: p) (t ++ s) = (findSub (d :: l :: p) s).map (· + t.length) := by
  induction t with
  | nil => simp
  | cons c t ih =>
    rw [List.cons_append, findSub_skip d l p c (t ++ s) (h [] c t rfl),
      ih (fun t₁ c' t₂ e => h (c :: t₁) c' t₂ (by rw [e]; rfl)), Option.map_map]
    congr 1

/-- Within a number in parentheses no label starts. -/
theorem findSub_paren (d l : Char) (p : Str) (k : ℕ) (s : Str) (hd : d.isDigit = true)
    (hl : l.isDigit = false ∧ l ≠ ')') :
    findSub (d :: l :: p) (paren k ++ s) = (findSub (d :: l :: p) s).map (· + (paren k).length) := by
  apply findSub_skips
  intro t₁ c t₂ e
  by_cases hc : c.isDigit = true
  · right
    have hdig : ∀ x ∈ Nat.toDigits 10 k, x.isDigit = true := fun x hx =>
      Nat.isDigit_of_mem_toDigits (by norm_num) (by norm_num) hx
    have hne : t₂ ≠ [] := by
      rintro rfl
      unfold paren at e
      have e' : ('(' :: Nat.toDigits 10 k) ++ [')'] = t₁ ++ [c] := by simpa using e
      have := List.append_inj_right' e' rfl
      rw [← (List.cons.inj this).1] at hc
      revert hc; decide
    have hmem : ∀ x ∈ t₂, x.isDigit = true ∨ x = ')' := by
      intro x hx
      cases t₁ with
      | nil =>
        unfold paren at e
        rw [List.nil_append] at e
        rw [← (List.cons.inj e).1] at hc
        exfalso; revert hc; decide
      | cons a t₁ =>
        unfold paren at e
        rw [List.cons_append] at e
        have e' := (List.cons.inj e).2
        have : x ∈ Nat.toDigits 10 k ++ [')'] := by rw [e']; simp [hx]
        rw [List.mem_append] at this
        rcases this with h | h
        · exact Or.inl (hdig x h)
        · exact Or.inr (by simpa using h)
    cases t₂ with
    | nil => exact absurd rfl hne
    | cons x t₂ =>
      rw [List.cons_append, List.head?_cons]
      intro hx
      have hx' := Option.some.inj hx
      rcases hmem x (by simp) with h | h
      · rw [hx'] at h
        rw [hl.1] at h
        exact absurd h (by decide)
      · exact hl.2 (by rw [← hx', h])
  · left
    rintro rfl
    exact hc hd

theorem letter_facts (a : Sub) : a.letter.isDigit = false ∧ a.letter ≠ ')' ∧ a.letter ≠ '(' := by
  cases a <;> decide

theorem shellLetter_not_digit (n : ℕ) : (shellLetter n).isDigit = false := by
  unfold shellLetter
  split <;> rfl

/-- An item of another orbital is skipped. -/
theorem findSub_item (o : Orb) (ho : o.valid) (p : Str) (it : CfgItem) (hw : it.wf)
    (h : it.orb? ≠ some o) (s : Str) :
    findSub (o.label ++ p) (it.text ++ s) = (findSub (o.label ++ p) s).map (· + it.text.length) := by
  have hd := digitChar_isDigit (a := o.n) (by have := ho.2; omega)
  obtain ⟨f1, f2, f3⟩ := letter_facts o.sub
  have e : o.label ++ p = Nat.digitChar o.n :: o.sub.letter :: p := rfl
  rw [e]
  have hsh : ∀ n, shellLetter n ≠ Nat.digitChar o.n := by
    intro n hh
    have := shellLetter_not_digit n
    rw [hh, hd] at this
    exact absurd this (by decide)
  cases it with
  | shell n c =>
    cases c with
    | none =>
      have := findSub_skip (Nat.digitChar o.n) o.sub.letter p (shellLetter n) s (Or.inl (hsh n))
      simpa [CfgItem.text] using this
    | some k =>
      have h1 := findSub_skip (Nat.digitChar o.n) o.sub.letter p (shellLetter n) (paren k ++ s)
        (Or.inl (hsh n))
      rw [findSub_paren _ _ p k s hd ⟨f1, f2⟩, Option.map_map] at h1
      simp only [CfgItem.text, List.cons_append]
      rw [h1]
      congr 1
  | orb o' k =>
    have hne : o' ≠ o := fun hh => h (by rw [hh]; rfl)
    have hv : o'.valid := hw.1
    have h2 := findSub_skip (Nat.digitChar o.n) o.sub.letter p o'.sub.letter (paren k ++ s) (Or.inl (by
      intro hh
      have := (letter_facts o'.sub).1
      rw [hh, hd] at this
      exact absurd this (by decide)))
    have h1 := findSub_skip (Nat.digitChar o.n) o.sub.letter p (Nat.digitChar o'.n)
      (o'.sub.letter :: (paren k ++ s)) (by
        by_contra hcon
        rw [not_or, not_not, not_not] at hcon
        apply hne
        apply Orb.label_inj hv ho
        unfold Orb.label
        rw [hcon.1, Option.some.inj hcon.2])
    rw [h2, findSub_paren _ _ p k s hd ⟨f1, f2⟩, Option.map_map, Option.map_map] at h1
    simp only [CfgItem.text, Orb.label, List.cons_append, List.nil_append]
    rw [h1]
    congr 1

theorem findSub_items (o : Orb) (ho : o.valid) (p : Str) (items : List CfgItem)
    (hw : ∀ it ∈ items, it.wf) (h : ∀ it ∈ items, it.orb? ≠ some o) (s : Str) :
    findSub (o.label ++ p) (cfgText items ++ s) =
      (findSub (o.label ++ p) s).map (· + (cfgText items).length) := by
  induction items with
  | nil => simp [cfgText]
  | cons it items ih =>
    have e : cfgText (it :: items) = it.text ++ cfgText items := rfl
    rw [e, List.append_assoc, findSub_item o ho p it (hw it (by simp)) (h it (by simp)),
      ih (fun i hi => hw i (by simp [hi])) (fun i hi => h i (by simp [hi])), Option.map_map]
    congr 1
    funext n
    simp only [Function.comp, List.length_append]
    omega

/-- A label that is not listed does not occur. -/
theorem findSub_none (o : Orb) (ho : o.valid) (p : Str) (items : List CfgItem)
    (hw : ∀ it ∈ items, it.wf) (h : ∀ it ∈ items, it.orb? ≠ some o) :
    findSub (o.label ++ p) (cfgText items) = none := by
  have := findSub_items o ho p items hw h []
  rw [List.append_nil] at this
  rw [this]
  simp [findSub, Orb.label]

/-- A listed label is found at its item. -/
theorem findSub_some (o : Orb) (ho : o.valid) (p : Str) (hp : p = [] ∨ p = ['(']) (pre post : List CfgItem)
    (k : ℕ) (hw : ∀ it ∈ pre, it.wf) (h : ∀ it ∈ pre, it.orb? ≠ some o) :
    findSub (o.label ++ p) (cfgText (pre ++ .orb o k :: post)) = some (cfgText pre).length := by
  have e : cfgText (pre ++ .orb o k :: post) =
      cfgText pre ++ (o.label ++ paren k ++ cfgText post) := by
    simp [cfgText, CfgItem.text]
  rw [e, findSub_items o ho p pre hw h]
  have : findSub (o.label ++ p) (o.label ++ paren k ++ cfgText post) = some 0 := by
    rcases hp with rfl | rfl
    · simp [Orb.label, findSub]
    · simp [Orb.label, findSub, paren]
  rw [this]
  simp

/-! ### Numbers -/

theorem not_space_of_digit {c : Char} (h : c.isDigit = true) : isSpace c = false := by
  have h1 : 48 ≤ c.toNat ∧ c.toNat ≤ 57 := by
    unfold Char.isDigit at h
    simp only [Bool.and_eq_true, decide_eq_true_eq] at h
    exact ⟨h.1, h.2⟩
  unfold isSpace
  simp only [Bool.or_eq_false_iff, Bool.and_eq_false_iff, decide_eq_false_iff_not]
  omega

theorem lstrip_digits (ds : Str) (h : ∀ c ∈ ds, c.isDigit = true) : lstrip ds = ds := by
  cases ds with
  | nil => rfl
  | cons c ds =>
    unfold lstrip
    rw [List.dropWhile_cons_of_neg]
    rw [not_space_of_digit (h c (by simp))]
    decide

theorem strip_digits (ds : Str) (h : ∀ c ∈ ds, c.isDigit = true) : strip ds = ds := by
  unfold strip
  rw [lstrip_digits ds h, lstrip_digits ds.reverse (fun c hc => h c (by simpa using hc)),
    List.reverse_reverse]

theorem validDigits_of (ds : Str) (h : ∀ c ∈ ds, c.isDigit = true) (hne : ds ≠ []) :
    validDigits ds = true := by
  induction ds with
  | nil => exact absurd rfl hne
  | cons c ds ih =>
    cases ds with
    | nil => simpa [validDigits] using h c (by simp)
    | cons x ds =>
      have hx : x ≠ '_' := by
        rintro rfl
        have := h '_' (by simp)
        revert this; decide
      have hh := ih (fun y hy => h y (by simp [hy])) (by simp)
      rw [validDigits.eq_4]
      · simp [hh, h c (by simp)]
      · simp
      · intro s hs
        exact hx (List.cons.inj hs).1

theorem pyInt_digits (ds : Str) (h : ∀ c ∈ ds, c.isDigit = true) (hne : ds ≠ []) :
    pyInt ds = .ok (digitsVal ds : ℤ) := by
  unfold pyInt
  rw [strip_digits ds h]
  have hv := validDigits_of ds h hne
  cases ds with
  | nil => exact absurd rfl hne
  | cons c ds =>
    have hc := h c (by simp)
    split
    · rename_i u e
      rw [(List.cons.inj e).1] at hc
      exact absurd hc (by decide)
    · rename_i u e
      rw [(List.cons.inj e).1] at hc
      exact absurd hc (by decide)
    · rw [if_pos hv]

theorem pyInt_toDigits (k : ℕ) : pyInt (Nat.toDigits 10 k) = .ok (k : ℤ) := by
  have hd : ∀ c ∈ Nat.toDigits 10 k, c.isDigit = true := fun c hc =>
    Nat.isDigit_of_mem_toDigits (by norm_num) (by norm_num) hc
  rw [pyInt_digits _ hd Nat.toDigits_ne_nil]
  congr 2
  unfold digitsVal
  rw [List.filter_eq_self.mpr hd]
  have := Nat.ofDigitChars_ten_toDigits (n := k)
  rw [Nat.ofDigitChars_eq_foldl] at this
  exact this

theorem pyInt_digitChar {k : ℕ} (hk : k ≤ 9) : pyInt [Nat.digitChar k] = .ok (k : ℤ) := by
  have := pyInt_toDigits k
  rwa [Nat.toDigits_of_lt_base (by omega)] at this

/-! ### One orbital -/

theorem orbStep_none (items : List CfgItem) (hw : ∀ it ∈ items, it.wf) (o : Orb) (ho : o.valid)
    (h : ∀ it ∈ items, it.orb? ≠ some o) (out : Str → ℤ) :
    orbStep (cfgText items) out o.label = .ok out := by
  have := findSub_none o ho [] items hw h
  rw [List.append_nil] at this
  unfold orbStep
  rw [this]

theorem orbStep_some (pre post : List CfgItem) (o : Orb) (k : ℕ)
    (hw : ∀ it ∈ pre ++ .orb o k :: post, it.wf) (h : ∀ it ∈ pre, it.orb? ≠ some o) (out : Str → ℤ) :
    orbStep (cfgText (pre ++ .orb o k :: post)) out o.label =
      .ok (fun x => if x = o.label then (k : ℤ) else out x) := by
  obtain ⟨ho, hk⟩ : o.valid ∧ (o.sub = .S ∨ o.sub = .P → k ≤ 9) := hw (.orb o k) (by simp)
  have hwp : ∀ it ∈ pre, it.wf := fun it hi => hw it (by simp [hi])
  have h1 := findSub_some o ho [] (Or.inl rfl) pre post k hwp h
  have h2 := findSub_some o ho ['('] (Or.inr rfl) pre post k hwp h
  rw [List.append_nil] at h1
  have e : cfgText (pre ++ .orb o k :: post) =
      cfgText pre ++ (Nat.digitChar o.n :: o.sub.letter :: (paren k ++ cfgText post)) := by
    simp [cfgText, CfgItem.text, Orb.label]
  have d0 : (cfgText (pre ++ .orb o k :: post)).drop (cfgText pre).length =
      Nat.digitChar o.n :: o.sub.letter :: (paren k ++ cfgText post) := by
    rw [e, List.drop_left]
  have d3 : (cfgText (pre ++ .orb o k :: post)).drop ((cfgText pre).length + 3) =
      Nat.toDigits 10 k ++ ([')'] ++ cfgText post) := by
    rw [← List.drop_drop, d0]
    simp [paren]
  unfold orbStep
  rw [h1]
  simp only [d0, List.take_succ_cons, List.take_zero]
  have hc : orbCount (cfgText (pre ++ .orb o k :: post)) [Nat.digitChar o.n, o.sub.letter]
      (cfgText pre).length = .ok (k : ℤ) := by
    unfold orbCount
    by_cases hs : o.sub = .S ∨ o.sub = .P
    · rw [if_neg (by rcases hs with hs | hs <;> rw [hs] <;> simp [Sub.letter]), d3,
        Nat.toDigits_of_lt_base (by have := hk hs; omega)]
      exact pyInt_digitChar (hk hs)
    · rw [if_pos (by
        cases hsub : o.sub with
        | S => exact absurd (Or.inl hsub) hs
        | P => exact absurd (Or.inr hsub) hs
        | D => exact Or.inl rfl
        | F => exact Or.inr rfl)]
      have hg : regexGroup [Nat.digitChar o.n, o.sub.letter] (cfgText (pre ++ .orb o k :: post)) =
          some (Nat.toDigits 10 k) := by
        unfold regexGroup
        change (match findSub (o.label ++ ['(']) _ with
          | none => none
          | some i => _) = _
        rw [h2]
        simp only [List.length_cons, List.length_nil]
        rw [show (cfgText pre).length + (0 + 1 + 1) + 1 = (cfgText pre).length + 3 by omega, d3,
          if_pos (by simp)]
        congr 1
        rw [List.takeWhile_append_of_pos]
        · simp
        · intro c hc
          have := Nat.isDigit_of_mem_toDigits (by norm_num) (by norm_num) hc
          simp only [decide_eq_true_eq]
          rintro rfl
          revert this; decide
      rw [hg]
      exact pyInt_toDigits k
  rw [hc]
  rfl

end
end BFit
