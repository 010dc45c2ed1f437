import Verif.Spec.PrintText
import Verif.Props.Bundled

/-! Lemmas about printed numbers. -/

namespace BFit

open Classical

noncomputable section

/-! ### Rounding -/

theorem roundHE_err {y : ℝ} (h : 0 ≤ y) : |(roundHE y : ℝ) - y| ≤ 1 / 2 := by
  have h1 := Nat.floor_le h
  have h2 := Nat.lt_floor_add_one y
  unfold roundHE
  rw [abs_le]
  split_ifs <;> push_cast <;> constructor <;> linarith

theorem roundHE_le {y : ℝ} (h : 0 ≤ y) {m : ℕ} (hm : y ≤ m) : roundHE y ≤ m := by
  have h1 := Nat.floor_le h
  have h2 : ⌊y⌋₊ ≤ m := by
    have := Nat.floor_le_floor hm
    rwa [Nat.floor_natCast] at this
  rcases Nat.lt_or_eq_of_le h2 with h3 | h3
  · unfold roundHE
    split_ifs <;> omega
  · have h4 : y - ⌊y⌋₊ < 1 / 2 := by
      rw [h3]
      linarith
    unfold roundHE
    rw [if_pos h4]
    exact h2

theorem le_roundHE {y : ℝ} {m : ℕ} (hm : (m : ℝ) ≤ y) : m ≤ roundHE y := by
  have h2 : m ≤ ⌊y⌋₊ := Nat.le_floor hm
  unfold roundHE
  split_ifs <;> omega

/-! ### Digits -/

theorem toDigits_digit (n : ℕ) : ∀ c ∈ Nat.toDigits 10 n, c.isDigit = true := fun _ hc =>
  Nat.isDigit_of_mem_toDigits (by norm_num) (by norm_num) hc

theorem decDigits_toDigits (n : ℕ) : decDigits (Nat.toDigits 10 n) = n :=
  Nat.ofDigitChars_ten_toDigits (n := n)

theorem digitChar_val {n : ℕ} (h : n < 10) : (Nat.digitChar n).toNat - 48 = n := by
  interval_cases n <;> rfl

theorem sixDigits_digit (n : ℕ) : ∀ c ∈ sixDigits n, c.isDigit = true := by
  intro c hc
  unfold sixDigits at hc
  obtain ⟨i, -, rfl⟩ := List.mem_map.mp hc
  rw [Nat.isDigit_digitChar]
  simp only [decide_eq_true_eq]
  omega

theorem sixDigits_length (n : ℕ) : (sixDigits n).length = 6 := by simp [sixDigits]

theorem decDigits_six (d : Str) (n : ℕ) : decDigits (d ++ sixDigits n) = decDigits d * 10 ^ 6 + n % 10 ^ 6 := by
  unfold decDigits sixDigits
  rw [List.foldl_append]
  simp only [List.map_cons, List.map_nil, List.foldl_cons, List.foldl_nil]
  rw [digitChar_val (by omega), digitChar_val (by omega), digitChar_val (by omega), digitChar_val (by omega),
    digitChar_val (by omega), digitChar_val (by omega)]
  omega

theorem decDigits_split (n : ℕ) : decDigits (Nat.toDigits 10 (n / 10 ^ 6) ++ sixDigits n) = n := by
  rw [decDigits_six, decDigits_toDigits]
  omega

/-! ### White space around -/

theorem blank_replicate (k : ℕ) : Blank (List.replicate k ' ') := by
  intro c hc
  rw [List.eq_of_mem_replicate hc]
  decide +kernel

theorem blank_append {a b : Str} (ha : Blank a) (hb : Blank b) : Blank (a ++ b) := by
  intro c hc
  rcases List.mem_append.mp hc with h | h
  · exact ha c h
  · exact hb c h

theorem blank_nil : Blank [] := by
  intro c hc
  simp at hc

theorem DecText.pad {a b w : Str} {x : ℝ} (ha : Blank a) (hb : Blank b) (h : DecText w x) :
    DecText (a ++ (w ++ b)) x := by
  obtain ⟨a', neg, d, d', b', rfl, h1, h2, h3⟩ := h
  exact ⟨a ++ a', neg, d, d', b' ++ b, by simp [List.append_assoc], blank_append ha h1, blank_append h2 hb, h3⟩

theorem ExpText.pad {a b w : Str} {x : ℝ} (ha : Blank a) (hb : Blank b) (h : ExpText w x) :
    ExpText (a ++ (w ++ b)) x := by
  obtain ⟨a', m, neg, d, b', y, rfl, h1, h2, h3⟩ := h
  exact ⟨a ++ a', m, neg, d, b' ++ b, y, by simp [List.append_assoc], blank_append ha h1, blank_append h2 hb, h3⟩

theorem NumText.pad {a b w : Str} {v : XR} (ha : Blank a) (hb : Blank b) (h : NumText w v) :
    NumText (a ++ (w ++ b)) v := by
  cases h with
  | dec h => exact .dec (h.pad ha hb)
  | exp h => exact .exp (h.pad ha hb)
  | pinf h1 h2 => simpa [List.append_assoc] using NumText.pinf (blank_append ha h1) (blank_append h2 hb)
  | ninf h1 h2 => simpa [List.append_assoc] using NumText.ninf (blank_append ha h1) (blank_append h2 hb)
  | nan h1 h2 => simpa [List.append_assoc] using NumText.nan (blank_append ha h1) (blank_append h2 hb)

theorem NumText.center {w : Str} {v : XR} (k : ℕ) (h : NumText w v) : NumText (center k w) v :=
  h.pad (blank_replicate _) (blank_replicate _)

theorem NumText.flush {w : Str} {v : XR} (k : ℕ) (h : NumText w v) : NumText (flush k w) v := by
  have := h.pad (blank_replicate (k - w.length)) blank_nil
  rwa [List.append_nil] at this

/-! ### Formats -/

theorem digit_not_white {c : Char} (h : c.isDigit = true) : ¬ White c := by
  intro hw
  have hs : Blank [c] := by
    intro c' hc
    rw [List.mem_singleton.mp hc]
    exact hw
  have := isSpace_not_digit (hs.space c (by simp))
  rw [h] at this
  exact absurd this (by simp)

/-- A decimal number with six digits after the point. -/
theorem dec_six (s : Bool) (n : ℕ) :
    DecText ((if s then ['-'] else []) ++ (Nat.toDigits 10 (n / 10 ^ 6) ++ '.' :: sixDigits n))
      ((if s then -1 else 1) * (n : ℝ) / 10 ^ 6) ∧
    ∀ c ∈ (if s then ['-'] else []) ++ (Nat.toDigits 10 (n / 10 ^ 6) ++ '.' :: sixDigits n), ¬ White c := by
  constructor
  · refine ⟨[], s, Nat.toDigits 10 (n / 10 ^ 6), sixDigits n, [], by simp, blank_nil, blank_nil, ?_, toDigits_digit _,
      sixDigits_digit _, ?_⟩
    · intro h
      have := sixDigits_length n
      rw [h] at this
      simp at this
    · rw [decDigits_split, sixDigits_length]
  · intro c hc
    simp only [List.mem_append, List.mem_cons] at hc
    rcases hc with hc | hc | rfl | hc
    · cases s with
      | true =>
        simp at hc
        rw [hc]
        decide +kernel
      | false => simp at hc
    · exact digit_not_white (toDigits_digit _ c hc)
    · decide +kernel
    · exact digit_not_white (sixDigits_digit _ c hc)

theorem fmtSign_eq (r : ℝ) : fmtSign r = if decide (r < 0) then ['-'] else [] := by
  unfold fmtSign
  by_cases h : r < 0 <;> simp [h]

theorem sign_abs (r : ℝ) : (if decide (r < 0) = true then -1 else 1) * |r| = r := by
  by_cases h : r < 0
  · rw [if_pos (by simpa using h), abs_of_neg h]
    ring
  · rw [if_neg (by simpa using h), abs_of_nonneg (not_lt.mp h), one_mul]

theorem sign_dist (r y : ℝ) : |(if decide (r < 0) = true then -1 else 1) * y - r| = |y - (|r|)| := by
  by_cases h : r < 0
  · rw [if_pos (by simpa using h), abs_of_neg h, ← abs_neg]
    congr 1
    ring
  · rw [if_neg (by simpa using h), abs_of_nonneg (not_lt.mp h), one_mul]

theorem fmtF_fin (r : ℝ) : ∃ x, DecText (fmtF (.fin r)) x ∧ |x - r| ≤ 5e-7 := by
  have h0 := (dec_six (decide (r < 0)) (roundHE (|r| * 10 ^ 6))).1
  rw [← fmtSign_eq] at h0
  refine ⟨_, h0, ?_⟩
  have h1 := roundHE_err (y := |r| * 10 ^ 6) (by positivity)
  rw [mul_div_assoc, sign_dist]
  rw [abs_le] at h1 ⊢
  constructor <;> linarith

theorem fmtF_num (v : XR) : ShowsAbs (fmtF v) v := by
  cases v with
  | fin r =>
    obtain ⟨x, h1, h2⟩ := fmtF_fin r
    exact ⟨.fin x, .dec h1, Or.inr ⟨x, r, rfl, rfl, h2⟩⟩
  | pinf => exact ⟨.pinf, NumText.pinf blank_nil blank_nil, Or.inl rfl⟩
  | ninf => exact ⟨.ninf, NumText.ninf blank_nil blank_nil, Or.inl rfl⟩
  | nan => exact ⟨.nan, NumText.nan blank_nil blank_nil, Or.inl rfl⟩

theorem ShowsAbs.center {w : Str} {v : XR} (k : ℕ) (h : ShowsAbs w v) : ShowsAbs (center k w) v := by
  obtain ⟨v', h1, h2⟩ := h
  exact ⟨v', h1.center k, h2⟩

theorem ShowsRel.center {w : Str} {v : XR} (k : ℕ) (h : ShowsRel w v) : ShowsRel (center k w) v := by
  obtain ⟨v', h1, h2⟩ := h
  exact ⟨v', h1.center k, h2⟩

theorem ShowsAbs.flush {w : Str} {v : XR} (k : ℕ) (h : ShowsAbs w v) : ShowsAbs (flush k w) v := by
  obtain ⟨v', h1, h2⟩ := h
  exact ⟨v', h1.flush k, h2⟩

theorem ShowsRel.flush {w : Str} {v : XR} (k : ℕ) (h : ShowsRel w v) : ShowsRel (flush k w) v := by
  obtain ⟨v', h1, h2⟩ := h
  exact ⟨v', h1.flush k, h2⟩

theorem decDigits_zero_cons (d : Str) : decDigits ('0' :: d) = decDigits d := rfl

theorem fmtExp_form (e : ℤ) : ∃ (neg : Bool) (d : Str), fmtExp e = (if neg then '-' else '+') :: d ∧ d ≠ [] ∧
    (∀ c ∈ d, c.isDigit = true) ∧ e = if neg then -(decDigits d : ℤ) else (decDigits d : ℤ) := by
  refine ⟨decide (e < 0), (if e.natAbs < 10 then ['0'] else []) ++ Nat.toDigits 10 e.natAbs, ?_, ?_, ?_, ?_⟩
  · unfold fmtExp
    by_cases h : e < 0 <;> simp [h]
  · intro h
    exact Nat.toDigits_ne_nil (List.append_eq_nil_iff.mp h).2
  · intro c hc
    rcases List.mem_append.mp hc with h | h
    · split_ifs at h
      · rw [List.mem_singleton.mp h]
        decide
      · simp at h
    · exact toDigits_digit _ c h
  · have e1 : decDigits ((if e.natAbs < 10 then ['0'] else []) ++ Nat.toDigits 10 e.natAbs) = e.natAbs := by
      split_ifs
      · exact (decDigits_zero_cons _).trans (decDigits_toDigits _)
      · exact decDigits_toDigits _
    rw [e1]
    by_cases h : e < 0
    · rw [if_pos (by simpa using h)]
      omega
    · rw [if_neg (by simpa using h)]
      omega

/-- A number with six digits after the point and an exponent. -/
theorem exp_six (s : Bool) (n : ℕ) (e : ℤ) :
    ExpText (((if s then ['-'] else []) ++ (Nat.toDigits 10 (n / 10 ^ 6) ++ '.' :: sixDigits n)) ++ 'e' :: fmtExp e)
      ((if s then -1 else 1) * (n : ℝ) / 10 ^ 6 * (10 : ℝ) ^ e) := by
  obtain ⟨neg, d, h1, h2, h3, h4⟩ := fmtExp_form e
  obtain ⟨g1, g2⟩ := dec_six s n
  refine ⟨[], _, neg, d, [], _, ?_, blank_nil, blank_nil, g1, g2, h2, h3, ?_⟩
  · rw [h1]
    simp
  · rw [← h4]

theorem log_bounds {r : ℝ} (h : r ≠ 0) :
    (10 : ℝ) ^ (Int.log 10 |r|) ≤ |r| ∧ |r| < (10 : ℝ) ^ (Int.log 10 |r| + 1) := by
  have h1 := Int.zpow_log_le_self (b := 10) (r := |r|) (by norm_num) (abs_pos.mpr h)
  have h2 := Int.lt_zpow_succ_log_self (b := 10) (by norm_num) |r|
  exact ⟨by exact_mod_cast h1, by exact_mod_cast h2⟩

theorem scaled_bounds {r : ℝ} (h : r ≠ 0) :
    (10 : ℝ) ^ 6 ≤ |r| * (10 : ℝ) ^ (6 - Int.log 10 |r|) ∧ |r| * (10 : ℝ) ^ (6 - Int.log 10 |r|) ≤ (10 : ℝ) ^ 7 := by
  obtain ⟨h1, h2⟩ := log_bounds h
  have hp : (0 : ℝ) < (10 : ℝ) ^ (6 - Int.log 10 |r|) := by positivity
  constructor
  · have := mul_le_mul_of_nonneg_right h1 hp.le
    rw [← zpow_add₀ (by norm_num)] at this
    have e : Int.log 10 |r| + (6 - Int.log 10 |r|) = (6 : ℕ) := by push_cast; ring
    rwa [e, zpow_natCast] at this
  · have := mul_le_mul_of_nonneg_right h2.le hp.le
    rw [← zpow_add₀ (by norm_num)] at this
    have e : Int.log 10 |r| + 1 + (6 - Int.log 10 |r|) = (7 : ℕ) := by push_cast; ring
    rwa [e, zpow_natCast] at this

theorem mant_bounds {r : ℝ} (h : r ≠ 0) : 10 ^ 6 ≤ roundHE (|r| * (10 : ℝ) ^ (6 - Int.log 10 |r|)) ∧
    roundHE (|r| * (10 : ℝ) ^ (6 - Int.log 10 |r|)) ≤ 10 ^ 7 := by
  obtain ⟨h1, h2⟩ := scaled_bounds h
  exact ⟨le_roundHE (by exact_mod_cast h1), roundHE_le (by positivity) (by exact_mod_cast h2)⟩

theorem mant_err {r : ℝ} (h : r ≠ 0) :
    |(if decide (r < 0) = true then -1 else 1) * (roundHE (|r| * (10 : ℝ) ^ (6 - Int.log 10 |r|)) : ℝ) / 10 ^ 6 *
      (10 : ℝ) ^ (Int.log 10 |r|) - r| ≤ 5e-7 * |r| := by
  have h1 := roundHE_err (y := |r| * (10 : ℝ) ^ (6 - Int.log 10 |r|)) (by positivity)
  obtain ⟨h2, -⟩ := log_bounds h
  set e := Int.log 10 |r| with he
  set n := roundHE (|r| * (10 : ℝ) ^ (6 - e)) with hn
  rw [mul_div_assoc, mul_assoc, sign_dist]
  have hp : (0 : ℝ) < (10 : ℝ) ^ e := by positivity
  have e1 : (10 : ℝ) ^ (6 - e) = 10 ^ 6 / (10 : ℝ) ^ e := by
    rw [zpow_sub₀ (by norm_num)]
    norm_num
  have e2 : (n : ℝ) / 10 ^ 6 * (10 : ℝ) ^ e - |r| =
      ((n : ℝ) - |r| * (10 : ℝ) ^ (6 - e)) * ((10 : ℝ) ^ e / 10 ^ 6) := by
    rw [e1]
    field_simp
  rw [e2, abs_mul, abs_of_pos (show (0 : ℝ) < (10 : ℝ) ^ e / 10 ^ 6 by positivity)]
  calc _ ≤ 1 / 2 * ((10 : ℝ) ^ e / 10 ^ 6) := mul_le_mul_of_nonneg_right h1 (by positivity)
    _ ≤ 5e-7 * |r| := by linarith

theorem fmtE_fin (r : ℝ) : ∃ x, ExpText (fmtE (.fin r)) x ∧ |x - r| ≤ 5e-7 * |r| := by
  by_cases h : r = 0
  · refine ⟨(if false then -1 else 1) * ((0 : ℕ) : ℝ) / 10 ^ 6 * (10 : ℝ) ^ (0 : ℤ), ?_, ?_⟩
    · have e : fmtE (.fin r) =
          ((if false then ['-'] else []) ++ (Nat.toDigits 10 (0 / 10 ^ 6) ++ '.' :: sixDigits 0)) ++ 'e' :: fmtExp 0 := by
        unfold fmtE fmtSpecial
        simp only
        rw [if_pos h]
        decide +kernel
      rw [e]
      exact exp_six false 0 0
    · simp [h]
  · have h1 := mant_err h
    by_cases hn : roundHE (|r| * (10 : ℝ) ^ (6 - Int.log 10 |r|)) = 10 ^ 7
    · have h2 := exp_six (decide (r < 0)) (10 ^ 6) (Int.log 10 |r| + 1)
      refine ⟨(if decide (r < 0) = true then -1 else 1) * ((10 ^ 6 : ℕ) : ℝ) / 10 ^ 6 *
          (10 : ℝ) ^ (Int.log 10 |r| + 1), ?_, ?_⟩
      · convert h2 using 1
        unfold fmtE fmtSpecial
        simp only
        rw [if_neg h, if_pos hn, ← fmtSign_eq, List.append_assoc]
        rfl
      · rw [hn] at h1
        convert h1 using 3
        rw [zpow_add₀ (by norm_num)]
        push_cast
        ring
    · have h2 := exp_six (decide (r < 0)) (roundHE (|r| * (10 : ℝ) ^ (6 - Int.log 10 |r|))) (Int.log 10 |r|)
      refine ⟨_, ?_, h1⟩
      convert h2 using 1
      unfold fmtE fmtSpecial
      simp only
      rw [if_neg h, if_neg hn, ← fmtSign_eq, List.append_assoc, List.append_assoc, List.cons_append]

theorem fmtE_num (v : XR) : ShowsRel (fmtE v) v := by
  cases v with
  | fin r =>
    obtain ⟨x, h1, h2⟩ := fmtE_fin r
    exact ⟨.fin x, .exp h1, Or.inr ⟨x, r, rfl, rfl, h2⟩⟩
  | pinf => exact ⟨.pinf, NumText.pinf blank_nil blank_nil, Or.inl rfl⟩
  | ninf => exact ⟨.ninf, NumText.ninf blank_nil blank_nil, Or.inl rfl⟩
  | nan => exact ⟨.nan, NumText.nan blank_nil blank_nil, Or.inl rfl⟩

theorem fmtD_int (n : ℤ) (k : ℕ) : IntText (center k (fmtD n)) n := by
  have e : fmtD n = (if decide (n < 0) = true then ['-'] else []) ++ Nat.toDigits 10 n.natAbs := by
    unfold fmtD
    by_cases h : n < 0 <;> simp [h]
  refine ⟨List.replicate ((k - (fmtD n).length) / 2) ' ', decide (n < 0), Nat.toDigits 10 n.natAbs,
    List.replicate (k - (fmtD n).length - (k - (fmtD n).length) / 2) ' ', ?_, blank_replicate _, blank_replicate _,
    Nat.toDigits_ne_nil, toDigits_digit _, ?_⟩
  · unfold center
    rw [← List.append_assoc (if decide (n < 0) = true then ['-'] else []), ← e]
  · rw [decDigits_toDigits]
    by_cases h : n < 0
    · rw [if_pos (by simpa using h)]
      omega
    · rw [if_neg (by simpa using h)]
      omega

/-! ### Characters -/

theorem DecText.chars {w : Str} {x : ℝ} (h : DecText w x) :
    ∀ c ∈ w, White c ∨ c.isDigit = true ∨ c = '.' ∨ c = '-' := by
  obtain ⟨a, neg, d, d', b, rfl, ha, hb, -, hd, hd', -⟩ := h
  intro c hc
  simp only [List.mem_append, List.mem_cons] at hc
  rcases hc with hc | hc | hc | hc | hc | hc
  · exact Or.inl (ha c hc)
  · cases neg <;> simp at hc
    exact Or.inr (Or.inr (Or.inr hc))
  · exact Or.inr (Or.inl (hd c hc))
  · exact Or.inr (Or.inr (Or.inl hc))
  · exact Or.inr (Or.inl (hd' c hc))
  · exact Or.inl (hb c hc)

theorem ExpText.chars {w : Str} {x : ℝ} (h : ExpText w x) :
    ∀ c ∈ w, White c ∨ c.isDigit = true ∨ c = '.' ∨ c = '-' ∨ c = 'e' ∨ c = '+' := by
  obtain ⟨a, m, neg, d, b, y, rfl, ha, hb, hm, -, -, hd, -⟩ := h
  intro c hc
  simp only [List.mem_append, List.mem_cons] at hc
  rcases hc with hc | hc | hc | hc | hc | hc
  · exact Or.inl (ha c hc)
  · rcases hm.chars c hc with h | h | h | h <;> simp [h]
  · simp [hc]
  · cases neg <;> simp at hc <;> simp [hc]
  · exact Or.inr (Or.inl (hd c hc))
  · exact Or.inl (hb c hc)

theorem blank_not {a : Str} (h : Blank a) {c : Char} (hc : ¬ White c) : c ∉ a := fun h' => hc (h c h')

theorem DecText.not_mem {w : Str} {x : ℝ} (h : DecText w x) {c : Char} (hw : ¬ White c) (hd : c.isDigit = false)
    (h1 : c ≠ '.') (h2 : c ≠ '-') : c ∉ w := by
  intro hc
  rcases h.chars c hc with h | h | h | h
  · exact hw h
  · rw [h] at hd
    exact absurd hd (by simp)
  · exact h1 h
  · exact h2 h

theorem ExpText.not_mem {w : Str} {x : ℝ} (h : ExpText w x) {c : Char} (hw : ¬ White c) (hd : c.isDigit = false)
    (h1 : c ≠ '.') (h2 : c ≠ '-') (h3 : c ≠ 'e') (h4 : c ≠ '+') : c ∉ w := by
  intro hc
  rcases h.chars c hc with h | h | h | h | h | h
  · exact hw h
  · rw [h] at hd
    exact absurd hd (by simp)
  · exact h1 h
  · exact h2 h
  · exact h3 h
  · exact h4 h

theorem NumText.no_bar {w : Str} {v : XR} (h : NumText w v) : '|' ∉ w := by
  have hw : ¬ White '|' := by decide +kernel
  cases h with
  | dec h => exact h.not_mem hw (by decide) (by decide) (by decide)
  | exp h => exact h.not_mem hw (by decide) (by decide) (by decide) (by decide) (by decide)
  | pinf h1 h2 =>
    simp only [List.mem_append, not_or]
    exact ⟨blank_not h1 hw, by decide, blank_not h2 hw⟩
  | ninf h1 h2 =>
    simp only [List.mem_append, not_or]
    exact ⟨blank_not h1 hw, by decide, blank_not h2 hw⟩
  | nan h1 h2 =>
    simp only [List.mem_append, not_or]
    exact ⟨blank_not h1 hw, by decide, blank_not h2 hw⟩

theorem ShowsAbs.no_bar {w : Str} {v : XR} (h : ShowsAbs w v) : '|' ∉ w := by
  obtain ⟨_, h1, -⟩ := h
  exact h1.no_bar

theorem ShowsRel.no_bar {w : Str} {v : XR} (h : ShowsRel w v) : '|' ∉ w := by
  obtain ⟨_, h1, -⟩ := h
  exact h1.no_bar

theorem IntText.no_bar {w : Str} {n : ℤ} (h : IntText w n) : '|' ∉ w := by
  have hw : ¬ White '|' := by decide +kernel
  obtain ⟨a, neg, d, b, rfl, ha, hb, -, hd, -⟩ := h
  simp only [List.mem_append, not_or]
  refine ⟨blank_not ha hw, ?_, fun h => ?_, blank_not hb hw⟩
  · cases neg <;> decide
  · exact absurd (hd _ h) (by decide)

/-! ### One reading -/

theorem DecText.unique {w : Str} {x y : ℝ} (h : DecText w x) (h' : DecText w y) : x = y :=
  (readDec_eq h).symm.trans (readDec_eq h')

theorem blank_head_digit {b : Str} (hb : Blank b) : ∀ c, b.head? = some c → c.isDigit = false := fun c hc =>
  isSpace_not_digit (hb.space c (List.mem_of_mem_head? hc))

theorem ExpText.unique {w : Str} {x y : ℝ} (h : ExpText w x) (h' : ExpText w y) : x = y := by
  have key : ∀ {w : Str} {x : ℝ}, ExpText w x → ∃ (m d b : Str) (neg : Bool) (y : ℝ), DecText m y ∧
      w.takeWhile (fun c => c != 'e') = m ∧ w.dropWhile (fun c => c != 'e') = 'e' :: (if neg then '-' else '+') :: (d ++ b) ∧
      (d ++ b).takeWhile Char.isDigit = d ∧
      x = y * (10 : ℝ) ^ (if neg then -(decDigits d : ℤ) else (decDigits d : ℤ)) := by
    rintro w x ⟨a, m, neg, d, b, y, rfl, ha, hb, hm, -, -, hd, hx⟩
    have hm' : DecText (a ++ m) y := by
      have := hm.pad ha blank_nil
      rwa [List.append_nil] at this
    have hne : 'e' ∉ a ++ m := hm'.not_mem (by decide +kernel) (by decide) (by decide) (by decide)
    have hs := takeWhile_append_stop (p := fun c => c != 'e') (a ++ m) ('e' :: (if neg then '-' else '+') :: (d ++ b))
      (fun c hc => by
        rw [bne_iff_ne]
        rintro rfl
        exact hne hc) (fun c hc => by
        simp at hc
        simp [← hc])
    rw [List.append_assoc] at hs
    exact ⟨a ++ m, d, b, neg, y, hm', hs.1, hs.2, (takeWhile_append_stop d b hd (blank_head_digit hb)).1, hx⟩
  obtain ⟨m, d, b, neg, u, h1, h2, h3, h4, h5⟩ := key h
  obtain ⟨m', d', b', neg', u', g1, g2, g3, g4, g5⟩ := key h'
  rw [h2] at g2
  rw [h3] at g3
  subst g2
  have e1 : u = u' := h1.unique g1
  simp only [List.cons.injEq, true_and] at g3
  obtain ⟨e2, e3⟩ := g3
  have e4 : neg = neg' := by
    cases neg <;> cases neg' <;> simp at e2 <;> rfl
  rw [e3, g4] at h4
  rw [h5, g5, e1, e4, h4]

theorem mem_ends {a b w : Str} {c : Char} (h : c ∈ w) : c ∈ a ++ (w ++ b) := by simp [h]

theorem not_mem_ends {a b w : Str} {c : Char} (ha : Blank a) (hb : Blank b) (hc : ¬ White c) (h : c ∉ w) :
    c ∉ a ++ (w ++ b) := by
  simp only [List.mem_append, not_or]
  exact ⟨blank_not ha hc, h, blank_not hb hc⟩

/-- A mark of the kind of value. -/
theorem NumText.marks {w : Str} {v : XR} (h : NumText w v) :
    (('n' ∈ w) ↔ ∀ r, v ≠ .fin r) ∧ (('a' ∈ w) ↔ v = .nan) ∧ ('i' ∈ w → ('-' ∈ w ↔ v = .ninf)) ∧
    ('e' ∈ w → ∀ x, ¬ DecText w x) ∧ ('e' ∉ w → ∀ x, ¬ ExpText w x) := by
  have hn : ¬ White 'n' := by decide +kernel
  have hi : ¬ White 'i' := by decide +kernel
  have ha : ¬ White 'a' := by decide +kernel
  have hm : ¬ White '-' := by decide +kernel
  have he : ¬ White 'e' := by decide +kernel
  have k1 : 'e' ∈ w → ∀ x, ¬ DecText w x := fun h x hx =>
    hx.not_mem he (by decide) (by decide) (by decide) h
  have k2 : 'e' ∉ w → ∀ x, ¬ ExpText w x := by
    rintro h x ⟨a, m, neg, d, b, y, rfl, -⟩
    simp at h
  refine ⟨?_, ?_, ?_, k1, k2⟩
  · cases h with
    | dec h => simp [h.not_mem hn (by decide) (by decide) (by decide)]
    | exp h => simp [h.not_mem hn (by decide) (by decide) (by decide) (by decide) (by decide)]
    | pinf h1 h2 => simp
    | ninf h1 h2 => simp
    | nan h1 h2 => simp
  · cases h with
    | dec h => simp [h.not_mem ha (by decide) (by decide) (by decide)]
    | exp h => simp [h.not_mem ha (by decide) (by decide) (by decide) (by decide) (by decide)]
    | pinf h1 h2 => simpa using not_mem_ends h1 h2 ha (w := ['i', 'n', 'f']) (by decide)
    | ninf h1 h2 => simpa using not_mem_ends h1 h2 ha (w := ['-', 'i', 'n', 'f']) (by decide)
    | nan h1 h2 => simp
  · cases h with
    | dec h => exact fun h' => absurd h' (h.not_mem hi (by decide) (by decide) (by decide))
    | exp h => exact fun h' => absurd h' (h.not_mem hi (by decide) (by decide) (by decide) (by decide) (by decide))
    | pinf h1 h2 =>
      intro _
      simpa using not_mem_ends h1 h2 hm (w := ['i', 'n', 'f']) (by decide)
    | ninf h1 h2 => simp
    | nan h1 h2 => exact fun h' => absurd h' (not_mem_ends h1 h2 hi (by decide))

theorem NumText.unique {w : Str} {v v' : XR} (h : NumText w v) (h' : NumText w v') : v = v' := by
  obtain ⟨a1, a2, a3, a4, a5⟩ := h.marks
  obtain ⟨b1, b2, b3, -, -⟩ := h'.marks
  cases h with
  | dec h =>
    cases h' with
    | dec h' => rw [h.unique h']
    | exp h' =>
      by_cases he : 'e' ∈ w
      · exact absurd h (a4 he _)
      · exact absurd h' (a5 he _)
    | pinf => exact absurd rfl (a1.1 (by simp) _)
    | ninf => exact absurd rfl (a1.1 (by simp) _)
    | nan => exact absurd rfl (a1.1 (by simp) _)
  | exp h =>
    cases h' with
    | dec h' =>
      by_cases he : 'e' ∈ w
      · exact absurd h' (a4 he _)
      · exact absurd h (a5 he _)
    | exp h' => rw [h.unique h']
    | pinf => exact absurd rfl (a1.1 (by simp) _)
    | ninf => exact absurd rfl (a1.1 (by simp) _)
    | nan => exact absurd rfl (a1.1 (by simp) _)
  | pinf =>
    rcases v' with r | _ | _ | _
    · exact absurd rfl (b1.1 (by simp) r)
    · rfl
    · have := (a3 (by simp)).1 ((b3 (by simp)).2 rfl)
      cases this
    · have := a2.1 (b2.2 rfl)
      cases this
  | ninf =>
    rcases v' with r | _ | _ | _
    · exact absurd rfl (b1.1 (by simp) r)
    · have := (b3 (by simp)).1 ((a3 (by simp)).2 rfl)
      cases this
    · rfl
    · have := a2.1 (b2.2 rfl)
      cases this
  | nan => exact (b2.1 (by simp)).symm

theorem IntText.unique {w : Str} {n n' : ℤ} (h : IntText w n) (h' : IntText w n') : n = n' := by
  have key : ∀ {w : Str} {n : ℤ}, IntText w n → ∃ (d b : Str) (neg : Bool),
      w.dropWhile isSpace = (if neg then ['-'] else []) ++ (d ++ b) ∧ d ≠ [] ∧ (∀ c ∈ d, c.isDigit = true) ∧
      (d ++ b).takeWhile Char.isDigit = d ∧ n = if neg then -(decDigits d : ℤ) else (decDigits d : ℤ) := by
    rintro w n ⟨a, neg, d, b, rfl, ha, hb, hne, hd, hx⟩
    refine ⟨d, b, neg, ?_, hne, hd, (takeWhile_append_stop d b hd (blank_head_digit hb)).1, hx⟩
    refine (takeWhile_append_stop (p := isSpace) a _ ha.space ?_).2
    intro c hc
    cases neg with
    | true =>
      simp at hc
      rw [← hc]
      decide
    | false =>
      cases d with
      | nil => exact absurd rfl hne
      | cons x d =>
        simp at hc
        rw [← hc]
        by_contra h
        rw [Bool.not_eq_false] at h
        have := isSpace_not_digit h
        rw [hd x (by simp)] at this
        cases this
  obtain ⟨d, b, neg, h1, h2, h3, h4, h5⟩ := key h
  obtain ⟨d', b', neg', g1, g2, g3, g4, g5⟩ := key h'
  rw [h1] at g1
  have hd : ∀ {d : Str}, d ≠ [] → (∀ c ∈ d, c.isDigit = true) → ∀ b s, d ++ b ≠ '-' :: s := by
    intro d h1 h2 b s h
    cases d with
    | nil => exact h1 rfl
    | cons x d =>
      simp at h
      have := h2 x (by simp)
      rw [h.1] at this
      exact absurd this (by decide)
  cases neg <;> cases neg' <;> simp at g1
  · rw [g1, g4] at h4
    rw [h5, g5, h4]
  · exact absurd g1 (hd h2 h3 _ _)
  · exact absurd g1.symm (hd g2 g3 _ _)
  · rw [g1, g4] at h4
    rw [h5, g5, h4]

theorem Cells.unique {w : Str} {fs gs : List Str} (h : Cells w fs) (h' : Cells w gs) : fs = gs := by
  obtain ⟨h1, h2⟩ := h
  obtain ⟨g1, g2⟩ := h'
  rw [h1] at g1
  simp only [List.cons.injEq, true_and] at g1
  clear h1
  induction fs generalizing gs with
  | nil =>
    cases gs with
    | nil => rfl
    | cons g gs => simp at g1
  | cons f fs ih =>
    cases gs with
    | nil => simp at g1
    | cons g gs =>
      simp only [List.map_cons, List.flatten_cons, List.append_assoc, List.cons_append, List.nil_append] at g1
      have hp : ∀ {f : Str}, '|' ∉ f → ∀ c ∈ f, (c != '|') = true := fun h c hc => by
        rw [bne_iff_ne]
        rintro rfl
        exact h hc
      have e1 := takeWhile_append_stop (p := fun c => c != '|') f ('|' :: (fs.map fun f => f ++ ['|']).flatten)
        (hp (h2 f (by simp))) (fun c hc => by simp at hc; simp [← hc])
      have e2 := takeWhile_append_stop (p := fun c => c != '|') g ('|' :: (gs.map fun f => f ++ ['|']).flatten)
        (hp (g2 g (by simp))) (fun c hc => by simp at hc; simp [← hc])
      rw [g1] at e1
      have e3 := e1.1.symm.trans e2.1
      have e4 := e1.2.symm.trans e2.2
      simp only [List.cons.injEq, true_and] at e4
      rw [e3, ih (fun f hf => h2 f (by simp [hf])) (fun f hf => g2 f (by simp [hf])) e4]

theorem cells_bars {fs : List Str} (h : ∀ f ∈ fs, '|' ∉ f) : Cells (bars fs) fs := by
  refine ⟨?_, h⟩
  unfold bars
  rw [List.flatMap_def]

/-! ### Widths -/

theorem center_length {k : ℕ} {s : Str} (h : s.length ≤ k) : (center k s).length = k := by
  unfold center
  simp only [List.length_append, List.length_replicate]
  omega

theorem toDigits_length {n k : ℕ} (hk : 0 < k) (h : n < 10 ^ k) : (Nat.toDigits 10 n).length ≤ k :=
  (Nat.length_toDigits_le_iff (by norm_num) hk).mpr h

theorem fmtD_length {n : ℤ} {k : ℕ} (hk : 0 < k) (h0 : 0 ≤ n) (h : n < 10 ^ k) : (fmtD n).length ≤ k := by
  unfold fmtD
  rw [if_neg (by omega), List.nil_append]
  refine toDigits_length hk ?_
  zify
  rw [abs_of_nonneg h0]
  exact h

theorem fmtSign_length (r : ℝ) : (fmtSign r).length ≤ 1 := by
  unfold fmtSign
  split_ifs <;> simp

theorem fmtF_length {v : XR} {M M' k : ℕ} (hk : 0 < k) (hM : M < 10 ^ k) (hM' : 10 * M' < 10 ^ k)
    (h : Between (-M') M v) : (fmtF v).length ≤ k + 7 := by
  cases v with
  | fin r =>
    obtain ⟨h1, h2⟩ := h r rfl
    have key : ∀ m : ℕ, |r| ≤ m → roundHE (|r| * 10 ^ 6) / 10 ^ 6 ≤ m := by
      intro m hm
      have : roundHE (|r| * 10 ^ 6) ≤ m * 10 ^ 6 := by
        refine roundHE_le (by positivity) ?_
        push_cast
        linarith [mul_le_mul_of_nonneg_right hm (by norm_num : (0 : ℝ) ≤ 10 ^ 6)]
      omega
    show (fmtSign r ++ (Nat.toDigits 10 (roundHE (|r| * 10 ^ 6) / 10 ^ 6) ++
      '.' :: sixDigits (roundHE (|r| * 10 ^ 6)))).length ≤ k + 7
    simp only [List.length_append, List.length_cons, sixDigits_length]
    by_cases hr : r < 0
    · have h3 := key M' (by rw [abs_of_neg hr]; linarith)
      have hs := fmtSign_length r
      have : (Nat.toDigits 10 (roundHE (|r| * 10 ^ 6) / 10 ^ 6)).length ≤ k - 1 := by
        refine toDigits_length ?_ ?_
        · by_contra hk'
          have : k = 1 := by omega
          subst this
          have hM0 : M' = 0 := by omega
          rw [hM0] at h1
          push_cast at h1
          linarith
        · have : 10 ^ k = 10 * 10 ^ (k - 1) := by
            rw [← pow_succ']
            congr 1
            omega
          omega
      omega
    · have h3 := key M (by rw [abs_of_nonneg (not_lt.mp hr)]; exact h2)
      have hs : (fmtSign r).length = 0 := by simp [fmtSign, hr]
      have : (Nat.toDigits 10 (roundHE (|r| * 10 ^ 6) / 10 ^ 6)).length ≤ k := toDigits_length hk (by omega)
      omega
  | pinf => show (3 : ℕ) ≤ _; omega
  | ninf => show (4 : ℕ) ≤ _; omega
  | nan => show (3 : ℕ) ≤ _; omega

theorem fmtExp_length {e : ℤ} (h : e.natAbs < 1000) : (fmtExp e).length ≤ 4 := by
  unfold fmtExp
  simp only [List.length_cons, List.length_append]
  have h3 : (Nat.toDigits 10 e.natAbs).length ≤ 3 := toDigits_length (by norm_num) (by norm_num; exact h)
  by_cases h1 : e.natAbs < 10
  · have : (Nat.toDigits 10 e.natAbs).length ≤ 1 := toDigits_length (by norm_num) (by norm_num; exact h1)
    rw [if_pos h1]
    simp only [List.length_singleton]
    omega
  · rw [if_neg h1]
    simp only [List.length_nil]
    omega

theorem fmtE_length {v : XR} (h : DoubleRange v) : (fmtE v).length ≤ 14 := by
  cases v with
  | fin r =>
    unfold fmtE fmtSpecial
    simp only
    by_cases h0 : r = 0
    · rw [if_pos h0]
      decide
    · rw [if_neg h0]
      rcases h r rfl with h1 | ⟨h1, h2⟩
      · exact absurd h1 h0
      obtain ⟨g1, g2⟩ := log_bounds h0
      obtain ⟨m1, m2⟩ := mant_bounds h0
      have l1 : Int.log 10 |r| ≤ 400 := (zpow_le_zpow_iff_right₀ (by norm_num : (1 : ℝ) < 10)).mp (g1.trans h2)
      have l2 : -400 < Int.log 10 |r| + 1 := (zpow_lt_zpow_iff_right₀ (by norm_num : (1 : ℝ) < 10)).mp (h1.trans_lt g2)
      have hs := fmtSign_length r
      split_ifs with hn
      · have he : (fmtExp (Int.log 10 |r| + 1)).length ≤ 4 := fmtExp_length (by omega)
        simp only [List.length_append, List.length_cons, List.length_nil]
        omega
      · have he : (fmtExp (Int.log 10 |r|)).length ≤ 4 := fmtExp_length (by omega)
        have hd : (Nat.toDigits 10 (roundHE (|r| * (10 : ℝ) ^ (6 - Int.log 10 |r|)) / 10 ^ 6)).length ≤ 1 :=
          toDigits_length (by norm_num) (by omega)
        simp only [List.length_append, List.length_cons, sixDigits_length]
        omega
  | pinf => show (3 : ℕ) ≤ _; omega
  | ninf => show (4 : ℕ) ≤ _; omega
  | nan => show (3 : ℕ) ≤ _; omega

theorem centerE_length {v : XR} {k : ℕ} (h : DoubleRange v) (hk : 14 ≤ k) : (center k (fmtE v)).length = k :=
  center_length ((fmtE_length h).trans hk)

theorem widths_length {w : Str} {ns : List ℕ} (h : Widths w ns) : w.length = 1 + ns.sum + ns.length := by
  obtain ⟨fs, ⟨rfl, -⟩, rfl⟩ := h
  simp only [List.length_cons, List.length_flatten, List.map_map, List.length_map]
  induction fs with
  | nil => rfl
  | cons f fs ih =>
    simp only [List.map_cons, List.sum_cons, Function.comp, List.length_append, List.length_cons, List.length_nil] at ih ⊢
    omega

end
end BFit
