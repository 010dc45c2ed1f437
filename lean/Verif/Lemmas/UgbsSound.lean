import Verif.Data.UgbsAll

/-! What the check of the UGBS file accepts. -/

namespace BFit

open Classical

noncomputable section

/-! ### The universal exponents -/

/-- Bounds for the constants of the universal set. -/
theorem exp_start : (1.12749685157937567147926 : ℝ) ≤ Real.exp 0.12 ∧
    Real.exp 0.12 ≤ 1.12749685157937567147927 := by
  constructor
  · refine le_trans ?_ (Real.sum_le_exp_of_nonneg (by norm_num) 16)
    norm_num [Finset.sum_range_succ, Nat.factorial]
  · refine (Real.exp_bound' (by norm_num) (by norm_num) (n := 16) (by norm_num)).trans ?_
    norm_num [Finset.sum_range_succ, Nat.factorial]

@[inherit_doc exp_start]
theorem exp_ratio : (1.95814970635880575406286 : ℝ) ≤ Real.exp 0.672 ∧
    Real.exp 0.672 ≤ 1.95814970635880575406287 := by
  constructor
  · refine le_trans ?_ (Real.sum_le_exp_of_nonneg (by norm_num) 26)
    norm_num [Finset.sum_range_succ, Nat.factorial]
  · refine (Real.exp_bound' (by norm_num) (by norm_num) (n := 26) (by norm_num)).trans ?_
    norm_num [Finset.sum_range_succ, Nat.factorial]

theorem universal_pos (k : ℤ) : 0 < universal k := Real.exp_pos _

theorem universal_eq (k : ℕ) :
    universal ((k : ℤ) - 6) * Real.exp 0.672 ^ 6 = Real.exp 0.12 * Real.exp 0.672 ^ k := by
  unfold universal
  rw [← Real.exp_nat_mul, ← Real.exp_nat_mul, ← Real.exp_add, ← Real.exp_add]
  congr 1
  push_cast
  ring

/-- The numbers in the list. -/
theorem universalN_close (k : ℕ) (hk : k < 34) :
    |(universalN.getD k 0 : ℝ) / 10 ^ 24 - universal ((k : ℤ) - 6)| ≤ 1e-16 * universal ((k : ℤ) - 6) := by
  obtain ⟨a1, a2⟩ := exp_start
  obtain ⟨b1, b2⟩ := exp_ratio
  have hu := universal_pos ((k : ℤ) - 6)
  have he := universal_eq k
  set u := universal ((k : ℤ) - 6)
  set a := Real.exp 0.12
  set b := Real.exp 0.672
  have hb6 : 0 < b ^ 6 := by positivity
  have lo6 : (1.95814970635880575406286 : ℝ) ^ 6 ≤ b ^ 6 := pow_le_pow_left₀ (by norm_num) b1 6
  have hi6 : b ^ 6 ≤ (1.95814970635880575406287 : ℝ) ^ 6 := pow_le_pow_left₀ (by positivity) b2 6
  have lok : (1.12749685157937567147926 : ℝ) * 1.95814970635880575406286 ^ k ≤ a * b ^ k :=
    mul_le_mul a1 (pow_le_pow_left₀ (by norm_num) b1 k) (by positivity) (by positivity)
  have hik : a * b ^ k ≤ (1.12749685157937567147927 : ℝ) * 1.95814970635880575406287 ^ k :=
    mul_le_mul a2 (pow_le_pow_left₀ (by positivity) b2 k) (by positivity) (by norm_num)
  have key : (universalN.getD k 0 : ℝ) / 10 ^ 24 * (1.95814970635880575406287 : ℝ) ^ 6 ≤
        (1 + 1e-16) * (1.12749685157937567147926 * 1.95814970635880575406286 ^ k) ∧
      (1 - 1e-16) * (1.12749685157937567147927 * 1.95814970635880575406287 ^ k) ≤
        (universalN.getD k 0 : ℝ) / 10 ^ 24 * (1.95814970635880575406286 : ℝ) ^ 6 := by
    clear_value u a b
    clear he lok hik lo6 hi6 hb6 hu a1 a2 b1 b2
    unfold universalN
    interval_cases k <;> norm_num
  have hU : (0 : ℝ) ≤ (universalN.getD k 0 : ℝ) / 10 ^ 24 := by positivity
  have h1 : (universalN.getD k 0 : ℝ) / 10 ^ 24 * b ^ 6 ≤ (1 + 1e-16) * u * b ^ 6 := by
    calc (universalN.getD k 0 : ℝ) / 10 ^ 24 * b ^ 6
        ≤ (universalN.getD k 0 : ℝ) / 10 ^ 24 * (1.95814970635880575406287 : ℝ) ^ 6 :=
          mul_le_mul_of_nonneg_left hi6 hU
      _ ≤ _ := key.1
      _ ≤ (1 + 1e-16) * (a * b ^ k) := mul_le_mul_of_nonneg_left lok (by norm_num)
      _ = _ := by rw [← he]; ring
  have h2 : (1 - 1e-16) * u * b ^ 6 ≤ (universalN.getD k 0 : ℝ) / 10 ^ 24 * b ^ 6 := by
    calc (1 - 1e-16) * u * b ^ 6 = (1 - 1e-16) * (a * b ^ k) := by rw [← he]; ring
      _ ≤ (1 - 1e-16) * (1.12749685157937567147927 * 1.95814970635880575406287 ^ k) :=
          mul_le_mul_of_nonneg_left hik (by norm_num)
      _ ≤ _ := key.2
      _ ≤ _ := mul_le_mul_of_nonneg_left lo6 hU
  have h1' := le_of_mul_le_mul_right h1 hb6
  have h2' := le_of_mul_le_mul_right h2 hb6
  rw [abs_le]
  constructor <;> linarith

/-! ### Numbers -/

theorem splitAux_noSpace (s cur : Str) (hc : ∀ c ∈ cur, isSpace c = false) :
    ∀ w ∈ splitAux s cur, ∀ c ∈ w, isSpace c = false := by
  induction s generalizing cur with
  | nil =>
    intro w hw
    unfold splitAux at hw
    split at hw
    · simp at hw
    · simp only [List.mem_singleton] at hw
      subst hw
      simpa using hc
  | cons c s ih =>
    intro w hw
    unfold splitAux at hw
    split at hw
    · split at hw
      · exact ih [] (by simp) w hw
      · rcases List.mem_cons.mp hw with rfl | hw
        · simpa using hc
        · exact ih [] (by simp) w hw
    · next h =>
      refine ih (c :: cur) ?_ w hw
      intro c' hc'
      rcases List.mem_cons.mp hc' with rfl | hc'
      · simpa using h
      · exact hc c' hc'

theorem sciF_reads {tf : Str → Py XR} (ht : ReadsFloats tf) {w : Str} {m s : ℕ} (h : sciF w = some (m, s))
    (hw : ∀ c ∈ w, isSpace c = false) : tf w = .ok (.fin ((m : ℝ) / 10 ^ s)) := by
  unfold sciF at h
  have hsp := List.takeWhile_append_dropWhile (p := fun c : Char => !Nat.beq c.toNat 69) (l := w)
  cases hd : decF (w.takeWhile fun c => !Nat.beq c.toNat 69) with
  | none => rw [hd] at h; simp at h
  | some d =>
    rw [hd] at h
    simp only at h
    split at h
    · simp at h
    · next hneg =>
      have hv : d.val = (d.mant : ℝ) / 10 ^ d.scale := by
        unfold Dec.val
        rw [if_neg hneg, one_mul]
      have hdt := decOf_sound (decF_of hd)
      split at h
      · next hnil =>
        simp only [Option.some.injEq, Prod.mk.injEq] at h
        rw [hnil, List.append_nil] at hsp
        rw [hsp] at hdt
        rw [ht.dec w _ hdt, hv, h.1, h.2]
      · next c ds hcons =>
        split at h
        · next hds =>
          simp only [Option.some.injEq, Prod.mk.injEq] at h
          simp only [Bool.and_eq_true, Bool.not_eq_true', List.all_eq_true] at hds
          have hc : c = 'E' := by
            have := List.head?_dropWhile_not (fun c : Char => !Nat.beq c.toNat 69) w
            rw [hcons] at this
            simp only [List.head?_cons] at this
            have h69 : Nat.beq c.toNat 69 = true := by simpa using this
            exact Char.toNat_inj.mp (Nat.eq_of_beq_eq_true h69)
          refine ht.sci w _ ⟨w.takeWhile fun c => !Nat.beq c.toNat 69, ds, d.val, ?_, hdt, ?_, ?_, hds.2, ?_⟩
          · rw [← hc, ← hcons, hsp]
          · intro c hc
            exact not_white_iff.2 (hw c ((List.takeWhile_prefix _).subset hc))
          · rintro rfl
            simp at hds
          · rw [hv, ← h.1, ← h.2, pow_add, div_div]
        · simp at h
      · simp at h

theorem closeN_sound {m s k : ℕ} (hk : k < 34) (h : closeN m s k = true) :
    |(m : ℝ) / 10 ^ s - universal ((k : ℤ) - 6)| ≤ 5e-15 * universal ((k : ℤ) - 6) := by
  unfold closeN at h
  rw [Bool.and_eq_true] at h
  obtain ⟨h1, h2⟩ := h
  have h1 := Nat.le_of_ble_eq_true h1
  have h2 := Nat.le_of_ble_eq_true h2
  have hu := universalN_close k hk
  have hpos := universal_pos ((k : ℤ) - 6)
  set U := universalN.getD k 0
  set u := universal ((k : ℤ) - 6)
  obtain ⟨A, hA⟩ : ∃ A : ℕ, A = m * 10 ^ (24 - s) := ⟨_, rfl⟩
  have h2' : 1000000000000000 * ((A - U) + (U - A)) ≤ 4 * U := by
    rw [hA]
    exact h2
  have hm : (m : ℝ) / 10 ^ s = (A : ℝ) / 10 ^ 24 := by
    rw [hA]
    push_cast
    rw [div_eq_div_iff (by positivity) (by positivity), mul_assoc, ← pow_add]
    congr 2
    omega
  have h3 : (1000000000000000 : ℝ) * |(A : ℝ) - U| ≤ 4 * U := by
    rcases le_total A U with h | h
    · rw [abs_of_nonpos (by have : (A : ℝ) ≤ U := by exact_mod_cast h
                            linarith)]
      have : 1000000000000000 * (U - A) ≤ 4 * U := by omega
      have : ((1000000000000000 * (U - A) : ℕ) : ℝ) ≤ ((4 * U : ℕ) : ℝ) := by exact_mod_cast this
      push_cast [Nat.cast_sub h] at this
      linarith
    · rw [abs_of_nonneg (by have : (U : ℝ) ≤ A := by exact_mod_cast h
                            linarith)]
      have : 1000000000000000 * (A - U) ≤ 4 * U := by omega
      have : ((1000000000000000 * (A - U) : ℕ) : ℝ) ≤ ((4 * U : ℕ) : ℝ) := by exact_mod_cast this
      push_cast [Nat.cast_sub h] at this
      linarith
  rw [hm]
  have h4 : |(A : ℝ) / 10 ^ 24 - U / 10 ^ 24| ≤ 4e-15 * ((U : ℝ) / 10 ^ 24) := by
    rw [← sub_div, abs_div, abs_of_pos (by positivity : (0 : ℝ) < 10 ^ 24), div_le_iff₀ (by positivity)]
    have : 4e-15 * ((U : ℝ) / 10 ^ 24) * 10 ^ 24 = 4e-15 * U := by
      field_simp
    rw [this]
    norm_num at h3 ⊢
    linarith
  have h5 := abs_le.mp hu
  calc |(A : ℝ) / 10 ^ 24 - u| ≤ |(A : ℝ) / 10 ^ 24 - U / 10 ^ 24| + |(U : ℝ) / 10 ^ 24 - u| := abs_sub_le _ _ _
    _ ≤ 4e-15 * ((U : ℝ) / 10 ^ 24) + 1e-16 * u := add_le_add h4 hu
    _ ≤ 5e-15 * u := by
      norm_num at h5 ⊢
      linarith

/-! ### Lines -/

/-- `v` is the universal exponent of the item `x`. -/
def Near (x : Char × ℕ) (v : ℝ) : Prop :=
  |v - universal ((x.2 : ℤ) - 6)| ≤ 5e-15 * universal ((x.2 : ℤ) - 6)

theorem toLower_digit {c : Char} (h : c.isDigit = true) : c.toLower = c := by
  unfold Char.toLower
  rw [dif_neg]
  unfold Char.isDigit at h
  simp only [Bool.and_eq_true, decide_eq_true_eq] at h
  rintro ⟨h1, -⟩
  have h2 : c.val.toNat ≤ 57 := h.2
  have h3 : 65 ≤ c.val.toNat := h1
  omega

theorem low_digit {low : Str → Str} (hl : LowersAscii low) {c : Char} {w : Str} (hc : c.isDigit = true)
    (hw : ∀ x ∈ c :: w, x.toNat < 128) : ∃ r, low (c :: w) = c :: r := by
  rw [hl _ hw, List.map_cons, toLower_digit hc]
  exact ⟨_, rfl⟩

theorem numOk_sound {k : ℕ} {w : Str} (hk : k < 34) (h : numOk k w = true) {tf : Str → Py XR} (ht : ReadsFloats tf)
    (hw : ∀ c ∈ w, isSpace c = false) :
    (∃ c r, w = c :: r ∧ c.isDigit = true) ∧ (∀ c ∈ w, c.toNat < 128) ∧
      ∃ v : ℝ, tf w = .ok (.fin v) ∧ |v - universal ((k : ℤ) - 6)| ≤ 5e-15 * universal ((k : ℤ) - 6) := by
  unfold numOk at h
  cases w with
  | nil => simp at h
  | cons c r =>
    simp only [Bool.and_eq_true] at h
    obtain ⟨⟨h1, h2⟩, h3⟩ := h
    cases hs : sciF (c :: r) with
    | none => rw [hs] at h3; simp at h3
    | some p =>
      obtain ⟨m, s⟩ := p
      rw [hs] at h3
      refine ⟨⟨c, r, rfl, h1⟩, fun x hx => ?_, _, sciF_reads ht hs hw, closeN_sound hk h3⟩
      have := Nat.le_of_ble_eq_true (List.all_eq_true.mp h2 x hx)
      omega

/-- The entries of an element. -/
def entries (el : Str) (xs : List (Char × ℕ)) (vals : List ℝ) : List UgbsItem :=
  List.zipWith (fun x v => .entry el [x.1] (.fin v)) xs vals

/-- A pair of lines for an exponent. -/
structure Pair (tf : Str → Py XR) (el : Str) (sh : Char) (k : ℕ) (l1 l2 : Str) : Prop where
  fst : splitWs l1 = [el, [sh]]
  snd : ∃ c r, splitWs l2 = [c :: r, "1.0000000".toList] ∧ c.isDigit = true ∧ (∀ x ∈ c :: r, x.toNat < 128) ∧
    ∃ v : ℝ, tf (c :: r) = .ok (.fin v) ∧ Near (sh, k) v

theorem pairOk_sound {el : Str} {sh : Char} {k : ℕ} {l1 l2 : Str} (hk : k < 34) (h : pairOk el sh k l1 l2 = true)
    {tf : Str → Py XR} (ht : ReadsFloats tf) : Pair tf el sh k l1 l2 := by
  unfold pairOk at h
  rw [Bool.and_eq_true] at h
  obtain ⟨h1, h2⟩ := h
  refine ⟨by rw [splitWs, ← splitF_eq]; exact beq_iff_eq.mp h1, ?_⟩
  have hsp := splitAux_noSpace l2 [] (by simp)
  rw [splitF_eq] at h2
  split at h2
  · next w c hw =>
    rw [hw] at hsp
    rw [Bool.and_eq_true] at h2
    obtain ⟨⟨c', r, rfl, hc⟩, hr, v, hv, hn⟩ := numOk_sound hk h2.1 ht (hsp w (by simp))
    refine ⟨c', r, ?_, hc, hr, v, hv, hn⟩
    show splitAux l2 [] = _
    rw [hw, beq_iff_eq.mp h2.2]
    rfl
  · simp at h2

theorem pairs_text {low : Str → Str} {tf : Str → Py XR} (ht : ReadsFloats tf) (hl : LowersAscii low) {el s : Str}
    (hs : ∀ c r, low s = c :: r → c.isDigit = false) {xs : List (Char × ℕ)} {ls : List Str}
    (hx : ∀ x ∈ xs, x.2 < 34) (h : pairsOk el xs ls = true) :
    ∃ vals : List ℝ, List.Forall₂ Near xs vals ∧ UgbsText low tf s (entries el xs vals) ls := by
  induction xs generalizing ls with
  | nil =>
    have : ls = [] := by simpa [pairsOk] using h
    subst this
    exact ⟨[], .nil, .nil⟩
  | cons x xs ih =>
    obtain ⟨sh, k⟩ := x
    match ls, h with
    | [], h => simp [pairsOk] at h
    | [_], h => simp [pairsOk] at h
    | l1 :: l2 :: ls, h =>
      rw [pairsOk, Bool.and_eq_true] at h
      obtain ⟨vals, hv, htext⟩ := ih (fun x hx' => hx x (List.mem_cons_of_mem _ hx')) h.2
      have hp := pairOk_sound (hx (sh, k) (by simp)) h.1 ht
      obtain ⟨c, r, h2, hc, hr, v, hv1, hv2⟩ := hp.snd
      refine ⟨v :: vals, .cons hv2 hv, .entry (words_iff.2 hp.fst) (words_iff.2 h2) hv1 (.inr ?_) htext⟩
      obtain ⟨r', hr'⟩ := low_digit hl hc hr
      rw [hr']
      intro hcon
      rw [hs c r' hcon.symm] at hc
      simp at hc

/-! ### Parts of the file -/

theorem UgbsText.append {low : Str → Str} {tf : Str → Py XR} {s : Str} {i1 i2 : List UgbsItem} {l1 l2 : List Str}
    (h1 : UgbsText low tf s i1 l1) (h2 : UgbsText low tf s i2 l2) : UgbsText low tf s (i1 ++ i2) (l1 ++ l2) := by
  induction h1 with
  | nil => exact h2
  | entry a b c d _ ih => exact .entry a b c d ih
  | other a _ ih => exact .other a ih

theorem ugbsOf_append (low : Str → Str) (s k : Str) (i1 i2 : List UgbsItem) :
    ugbsOf low s k (i1 ++ i2) = ugbsOf low s k i1 ++ ugbsOf low s k i2 := by
  induction i1 with
  | nil => rfl
  | cons x i1 ih =>
    cases x with
    | other => exact ih
    | entry el sh z =>
      rw [List.cons_append, ugbsOf, ugbsOf, ih]
      split <;> rfl

/-- The exponents of a shell. -/
def shellVals (sh : Char) (xs : List (Char × ℕ)) (vals : List ℝ) : List ℝ :=
  ((xs.zip vals).filter fun p => p.1.1 == sh).map Prod.snd

theorem ugbsOf_entries (low : Str → Str) (s el : Str) (sh : Char) (xs : List (Char × ℕ)) (vals : List ℝ) :
    ugbsOf low s [sh] (entries el xs vals) =
      if low el = low s then fins (shellVals sh xs vals) else [] := by
  induction xs generalizing vals with
  | nil => simp [entries, ugbsOf, shellVals]
  | cons x xs ih =>
    cases vals with
    | nil => simp [entries, ugbsOf, shellVals]
    | cons v vals =>
      have e : entries el (x :: xs) (v :: vals) = .entry el [x.1] (.fin v) :: entries el xs vals := rfl
      rw [e, ugbsOf, ih]
      by_cases h1 : low el = low s
      · simp only [h1, if_true, true_and]
        unfold shellVals
        rw [List.zip_cons_cons, List.filter_cons]
        by_cases h2 : x.1 = sh
        · simp [h2]
        · simp [h2]
      · simp [h1]

theorem forall₂_split {α β : Type} {R : α → β → Prop} {a b : List α} {c : List β} (h : List.Forall₂ R (a ++ b) c) :
    ∃ c1 c2, c = c1 ++ c2 ∧ List.Forall₂ R a c1 ∧ List.Forall₂ R b c2 := by
  induction a generalizing c with
  | nil => exact ⟨[], c, rfl, .nil, h⟩
  | cons x a ih =>
    cases h with
    | cons h1 h2 =>
      obtain ⟨c1, c2, rfl, h3, h4⟩ := ih h2
      exact ⟨_ :: c1, c2, rfl, .cons h1 h3, h4⟩

theorem shellVals_append (sh : Char) {a b : List (Char × ℕ)} {u v : List ℝ} (h : a.length = u.length) :
    shellVals sh (a ++ b) (u ++ v) = shellVals sh a u ++ shellVals sh b v := by
  unfold shellVals
  rw [List.zip_append h, List.filter_append, List.map_append]

/-- One shell. -/
theorem shellVals_one (sh sh' : Char) (top : ℕ) (n : ℕ) (hn : n ≤ top + 1) {vals : List ℝ}
    (h : List.Forall₂ Near ((List.range n).map fun i => (sh', top - i)) vals) :
    (sh = sh' → (shellVals sh ((List.range n).map fun i => (sh', top - i)) vals).length = n ∧
      ∀ i < n, |vec (shellVals sh ((List.range n).map fun i => (sh', top - i)) vals) i -
        universal ((top : ℤ) - 6 - i)| ≤ 5e-15 * universal ((top : ℤ) - 6 - i)) ∧
    (sh ≠ sh' → shellVals sh ((List.range n).map fun i => (sh', top - i)) vals = []) := by
  have hl : vals.length = n := by simpa using h.length_eq.symm
  constructor
  · rintro rfl
    have hall : ((((List.range n).map fun i => (sh, top - i)).zip vals).filter fun p => p.1.1 == sh) =
        ((List.range n).map fun i => (sh, top - i)).zip vals := by
      rw [List.filter_eq_self]
      intro p hp
      have := (List.of_mem_zip hp).1
      obtain ⟨i, -, hi⟩ := List.mem_map.mp this
      simp [← hi]
    have e : shellVals sh ((List.range n).map fun i => (sh, top - i)) vals = vals := by
      unfold shellVals
      rw [hall]
      exact List.map_snd_zip (by simp [hl])
    rw [e]
    refine ⟨hl, fun i hi => ?_⟩
    have := (List.forall₂_iff_get.mp h).2 i (by simpa using hi) (by omega)
    simp only [List.get_eq_getElem, List.getElem_map, List.getElem_range, Near] at this
    have hv : vec vals i = vals[i]'(by omega) := by
      unfold vec
      rw [List.getD_eq_getElem _ _ (by omega)]
    rw [hv, show ((top : ℤ) - 6 - i) = ((top - i : ℕ) : ℤ) - 6 by omega]
    exact this
  · intro hne
    unfold shellVals
    rw [List.map_eq_nil_iff, List.filter_eq_nil_iff]
    intro p hp
    have := (List.of_mem_zip hp).1
    obtain ⟨i, -, hi⟩ := List.mem_map.mp this
    simp [← hi, Ne.symm hne]

theorem shellVals_block (sh : Char) (shells : List (Char × ℕ × ℕ)) (hnd : (shells.map Prod.fst).Nodup)
    (hs : ∀ s ∈ shells, 1 ≤ s.2.2 ∧ s.2.2 ≤ s.2.1 + 1 ∧ s.2.1 ≤ 33) {vals : List ℝ}
    (h : List.Forall₂ Near (expand shells) vals) :
    (shellVals sh (expand shells) vals ≠ [] ↔ sh ∈ shells.map Prod.fst) ∧
      ∃ top, ShellOk (shellVals sh (expand shells) vals) top := by
  induction shells generalizing vals with
  | nil =>
    have e : shellVals sh (expand []) vals = [] := by simp [shellVals, expand]
    rw [e]
    exact ⟨by simp, 0, by norm_num, by simp, by simp⟩
  | cons s shells ih =>
    obtain ⟨sh', top, n⟩ := s
    have e : expand ((sh', top, n) :: shells) =
        ((List.range n).map fun i => (sh', top - i)) ++ expand shells := rfl
    rw [e] at h ⊢
    obtain ⟨v1, v2, rfl, h1, h2⟩ := forall₂_split h
    rw [shellVals_append sh h1.length_eq]
    simp only [List.map_cons, List.nodup_cons] at hnd
    obtain ⟨i1, top', i2⟩ := ih hnd.2 (fun s hs' => hs s (List.mem_cons_of_mem _ hs')) h2
    obtain ⟨b1, b2, b3⟩ := hs (sh', top, n) (by simp)
    simp only at b1 b2 b3
    obtain ⟨o1, o2⟩ := shellVals_one sh sh' top n b2 h1
    by_cases hsh : sh = sh'
    · obtain ⟨o3, o4⟩ := o1 hsh
      have hnil : shellVals sh (expand shells) v2 = [] := by
        by_contra hne
        exact hnd.1 (hsh ▸ i1.mp hne)
      rw [hnil, List.append_nil]
      refine ⟨?_, (top : ℤ) - 6, by omega, by rw [o3]; omega, fun i hi => o4 i (by omega)⟩
      constructor
      · intro _
        simp [hsh]
      · intro _ hc
        rw [hc] at o3
        simp at o3
        omega
    · rw [o2 hsh, List.nil_append]
      refine ⟨?_, top', i2⟩
      rw [i1]
      simp [hsh]

end
end BFit
