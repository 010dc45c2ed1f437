import Verif.Lemmas.UgbsSound
import Verif.Props.Bundled

/-! Property C97: the bundled UGBS file. -/

namespace BFit

open Classical

noncomputable section

/-- What the check says about the part of an element. -/
structure UBlock.Good (b : UBlock) : Prop where
  sym : HasZ (b.el.map Char.toLower) b.z
  ascii : ∀ c ∈ b.el, c.toNat < 128
  names : b.shells.map Prod.fst = shellsOf b.z
  shells : ∀ s ∈ b.shells, 1 ≤ s.2.2 ∧ s.2.2 ≤ s.2.1 + 1 ∧ s.2.1 ≤ 33
  lines : ∃ c ls x, b.lines = c :: ls ∧ splitWs c = ["#BASIS".toList, "SET:".toList, x] ∧
    pairsOk b.el (expand b.shells) ls = true

theorem UBlock.good {b : UBlock} (h : b.ok = true) : b.Good := by
  unfold UBlock.ok at h
  simp only [Bool.and_eq_true, decide_eq_true_eq] at h
  obtain ⟨⟨⟨⟨⟨h1, h2⟩, h3⟩, h4⟩, h5⟩, h6⟩ := h
  refine ⟨⟨h1, beq_iff_eq.mp h2⟩, ?_, beq_iff_eq.mp h4, ?_, ?_⟩
  · intro c hc
    have := Nat.le_of_ble_eq_true (List.all_eq_true.mp h3 c hc)
    omega
  · intro s hs
    have := List.all_eq_true.mp h5 s hs
    simp only [Bool.and_eq_true] at this
    exact ⟨Nat.le_of_ble_eq_true this.1.1, Nat.le_of_ble_eq_true this.1.2, Nat.le_of_ble_eq_true this.2⟩
  · cases hl : b.lines with
    | nil => rw [hl] at h6; simp at h6
    | cons c ls =>
      rw [hl] at h6
      simp only [Bool.and_eq_true] at h6
      obtain ⟨h7, h8⟩ := h6
      rw [splitF_eq] at h7
      split at h7
      · next a b' x hx =>
        rw [Bool.and_eq_true] at h7
        refine ⟨c, ls, x, rfl, ?_, h8⟩
        show splitAux c [] = _
        rw [hx, beq_iff_eq.mp h7.1, beq_iff_eq.mp h7.2]
        rfl
      · simp at h7

theorem UBlock.Good.low {b : UBlock} (h : b.Good) {low : Str → Str} (hl : LowersAscii low) : HasZ (low b.el) b.z := by
  rw [hl _ h.ascii]
  exact h.sym

theorem hasZ_str {e e' : Str} {z : ℕ} (h : HasZ e z) (h' : HasZ e' z) : e = e' := by
  have := h.2.symm.trans h'.2
  simpa using this

theorem expand_lt {shells : List (Char × ℕ × ℕ)} (h : ∀ s ∈ shells, 1 ≤ s.2.2 ∧ s.2.2 ≤ s.2.1 + 1 ∧ s.2.1 ≤ 33)
    {x : Char × ℕ} (hx : x ∈ expand shells) : x.2 < 34 ∧ x.1 ∈ shells.map Prod.fst := by
  obtain ⟨s, hs, hx⟩ := List.mem_flatMap.mp hx
  obtain ⟨i, -, rfl⟩ := List.mem_map.mp hx
  have := h s hs
  exact ⟨by simp only; omega, List.mem_map.mpr ⟨s, hs, rfl⟩⟩

theorem shellsOf_sub (z : ℕ) : ∀ c ∈ shellsOf z, [c] ∈ shellNames := by
  unfold shellsOf
  intro c hc
  split at hc
  · fin_cases hc <;> decide
  split at hc
  · fin_cases hc <;> decide
  split at hc <;> fin_cases hc <;> decide

theorem shellsOf_nodup (z : ℕ) : (shellsOf z).Nodup := by
  unfold shellsOf
  split
  · decide
  split
  · decide
  split <;> decide

/-- Names for which a request goes through the whole file. -/
structure Plain (low : Str → Str) (s : Str) : Prop where
  digit : ∀ c r, low s = c :: r → c.isDigit = false
  hash : low s ≠ "#".toList
  basis : low s ≠ "basis".toList
  hbasis : low s ≠ "#basis".toList
  fin : low s ≠ "end".toList

theorem plain_hasZ {low : Str → Str} {s : Str} {z : ℕ} (h : HasZ (low s) z) : Plain low s := by
  have hm : low s ∈ symbols := List.mem_of_getElem? h.2
  have key : ∀ e ∈ symbols, (∀ c r, e = c :: r → c.isDigit = false) ∧ e ≠ "#".toList ∧ e ≠ "basis".toList ∧
      e ≠ "#basis".toList ∧ e ≠ "end".toList := by
    have h1 : ∀ e ∈ symbols, (e.head?.map Char.isDigit) = some false ∧ e ≠ "#".toList ∧ e ≠ "basis".toList ∧
        e ≠ "#basis".toList ∧ e ≠ "end".toList := by decide +kernel
    intro e he
    obtain ⟨h2, h3⟩ := h1 e he
    refine ⟨?_, h3⟩
    rintro c r rfl
    simpa using h2
  obtain ⟨h1, h2, h3, h4, h5⟩ := key _ hm
  exact ⟨h1, h2, h3, h4, h5⟩

theorem lower_lit {low : Str → Str} (hl : LowersAscii low) {w v : Str} (h : (w.all fun c => Nat.ble c.toNat 127) = true)
    (hv : w.map Char.toLower = v) : low w = v := by
  rw [hl w, hv]
  intro c hc
  have := Nat.le_of_ble_eq_true (List.all_eq_true.mp h c hc)
  omega

theorem block_text {b : UBlock} (hb : b.Good) {low : Str → Str} {tf : Str → Py XR} (ht : ReadsFloats tf)
    (hl : LowersAscii low) {s : Str} (hs : Plain low s) :
    ∃ vals, List.Forall₂ Near (expand b.shells) vals ∧
      UgbsText low tf s (.other :: entries b.el (expand b.shells) vals) b.lines := by
  obtain ⟨c, ls, x, h1, h2, h3⟩ := hb.lines
  obtain ⟨vals, v1, v2⟩ := pairs_text ht hl hs.digit (fun x hx => (expand_lt hb.shells hx).1) h3
  refine ⟨vals, v1, ?_⟩
  rw [h1]
  refine .other ?_ v2
  intro w ws hw
  rw [words_iff, h2] at hw
  rw [← (List.cons.inj hw).1, lower_lit hl (v := "#basis".toList) (by decide) (by decide)]
  exact Ne.symm hs.hbasis

theorem entries_shell {el e sh : Str} {z : XR} {xs : List (Char × ℕ)} {vals : List ℝ}
    (h : UgbsItem.entry e sh z ∈ entries el xs vals) : ∃ x ∈ xs, sh = [x.1] := by
  induction xs generalizing vals with
  | nil => simp [entries] at h
  | cons x xs ih =>
    cases vals with
    | nil => simp [entries] at h
    | cons v vals =>
      have e : entries el (x :: xs) (v :: vals) = .entry el [x.1] (.fin v) :: entries el xs vals := rfl
      rw [e] at h
      rcases List.mem_cons.mp h with h | h
      · injection h with _ h _
        exact ⟨x, by simp, h⟩
      · obtain ⟨y, hy, rfl⟩ := ih h
        exact ⟨y, List.mem_cons_of_mem _ hy, rfl⟩

/-- Number of exponents of a shell. -/
def UBlock.count (b : UBlock) (sh : Char) : ℕ := ((expand b.shells).filter fun x => x.1 == sh).length

theorem shellVals_length (sh : Char) {xs : List (Char × ℕ)} {vals : List ℝ} (h : xs.length = vals.length) :
    (shellVals sh xs vals).length = (xs.filter fun x => x.1 == sh).length := by
  induction xs generalizing vals with
  | nil => simp [shellVals]
  | cons x xs ih =>
    cases vals with
    | nil => simp at h
    | cons v vals =>
      have := ih (vals := vals) (by simpa using h)
      unfold shellVals at this ⊢
      simp only [List.zip_cons_cons, List.filter_cons]
      by_cases hx : (x.1 == sh) = true
      · rw [if_pos hx, if_pos hx]
        simpa using this
      · rw [if_neg hx, if_neg hx]
        exact this

theorem blocks_text {low : Str → Str} {tf : Str → Py XR} (ht : ReadsFloats tf) (hl : LowersAscii low) {s : Str}
    (hs : Plain low s) (bs : List UBlock) (hok : ∀ b ∈ bs, b.ok = true) (hnd : (bs.map UBlock.z).Nodup) :
    ∃ items, UgbsText low tf s items (bs.flatMap UBlock.lines) ∧
      (∀ el sh z, UgbsItem.entry el sh z ∈ items → sh ∈ shellNames) ∧
      ∀ sh, ∃ l, ugbsOf low s [sh] items = fins l ∧ ((∀ b ∈ bs, ¬ HasZ (low s) b.z) → l = []) ∧
        ∀ b ∈ bs, HasZ (low s) b.z → (l ≠ [] ↔ sh ∈ shellsOf b.z) ∧ l.length = b.count sh ∧
          ∃ top, ShellOk l top := by
  induction bs with
  | nil => exact ⟨[], .nil, by simp, fun sh => ⟨[], rfl, fun _ => rfl, by simp⟩⟩
  | cons b bs ih =>
    rw [List.map_cons, List.nodup_cons] at hnd
    obtain ⟨items, i1, i2, i3⟩ := ih (fun b hb => hok b (List.mem_cons_of_mem _ hb)) hnd.2
    have hb := UBlock.good (hok b (by simp))
    obtain ⟨vals, v1, v2⟩ := block_text hb ht hl hs
    refine ⟨(.other :: entries b.el (expand b.shells) vals) ++ items, ?_, ?_, ?_⟩
    · rw [List.flatMap_cons]
      exact v2.append i1
    · intro el sh z hm
      simp only [List.cons_append, List.mem_cons, reduceCtorEq, false_or, List.mem_append] at hm
      rcases hm with hm | hm
      · obtain ⟨x, hx, rfl⟩ := entries_shell hm
        have := (expand_lt hb.shells hx).2
        rw [hb.names] at this
        exact shellsOf_sub _ _ this
      · exact i2 el sh z hm
    · intro sh
      obtain ⟨l, l1, l2, l3⟩ := i3 sh
      have e : ugbsOf low s [sh] ((.other :: entries b.el (expand b.shells) vals) ++ items) =
          (if low b.el = low s then fins (shellVals sh (expand b.shells) vals) else []) ++ fins l := by
        rw [ugbsOf_append, l1, ugbsOf, ugbsOf_entries]
      rw [e]
      have hz := hb.low hl
      by_cases hzs : HasZ (low s) b.z
      · rw [if_pos (hasZ_str hz hzs)]
        have hno : ∀ b' ∈ bs, ¬ HasZ (low s) b'.z := by
          intro b' hb' h'
          exact hnd.1 (List.mem_map.mpr ⟨b', hb', hasZ_unique h' hzs⟩)
        rw [l2 hno]
        refine ⟨shellVals sh (expand b.shells) vals, by simp, fun h => absurd hzs (h b (by simp)), ?_⟩
        intro b' hb' h'
        have hbb : b' = b := by
          rcases List.mem_cons.mp hb' with h | h
          · exact h
          · exact absurd h' (hno b' h)
        subst hbb
        rw [← hb.names]
        obtain ⟨q1, q2⟩ := shellVals_block sh _ (by rw [hb.names]; exact shellsOf_nodup _) hb.shells v1
        exact ⟨q1, shellVals_length sh v1.length_eq, q2⟩
      · rw [if_neg (fun h => hzs (by rw [← h]; exact hz)), List.nil_append]
        refine ⟨l, rfl, fun h => l2 fun b' hb' => h b' (List.mem_cons_of_mem _ hb'), ?_⟩
        intro b' hb' h'
        rcases List.mem_cons.mp hb' with rfl | h
        · exact absurd h' hzs
        · exact l3 b' h h'

theorem others_text {low : Str → Str} {tf : Str → Py XR} {s : Str} (ls : List Str)
    (h : ∀ l ∈ ls, ∀ w, (splitWs l).head? = some w → low w ≠ low s) :
    UgbsText low tf s (List.replicate ls.length .other) ls := by
  induction ls with
  | nil => exact .nil
  | cons l ls ih =>
    refine .other ?_ (ih fun l' hl' => h l' (List.mem_cons_of_mem _ hl'))
    intro w ws hw
    exact h l (by simp) w (by rw [words_iff.1 hw]; rfl)

theorem ugbsOf_others (low : Str → Str) (s k : Str) (n : ℕ) : ugbsOf low s k (List.replicate n .other) = [] := by
  induction n with
  | zero => rfl
  | succ n ih => exact ih

/-- The elements of the file. -/
theorem ugbs_elements :
    Data.ugbsBlocks.map UBlock.z = List.range' 1 57 ++ List.range' 72 15 := by decide +kernel

theorem ugbs_mem (z : ℕ) : (∃ b ∈ Data.ugbsBlocks, b.z = z) ↔ (1 ≤ z ∧ z ≤ 57) ∨ (72 ≤ z ∧ z ≤ 86) := by
  have h : (∃ b ∈ Data.ugbsBlocks, b.z = z) ↔ z ∈ Data.ugbsBlocks.map UBlock.z := by simp
  rw [h, ugbs_elements, List.mem_append, List.mem_range'_1, List.mem_range'_1]
  omega

/-- First words of the other lines. -/
theorem head_words : Data.ugbsHead.map (fun l => (splitWs l).take 2) =
    [["#".toList, "Elements".toList], ["#".toList, "--------".toList], ["#".toList, "H".toList], ["#".toList], [], [],
      [], ["BASIS".toList, "\"ao".toList]] := by decide +kernel

theorem end_words : Data.ugbsEnd.map splitWs = [["END".toList], []] := by decide +kernel

theorem head_first {l w : Str} {ws : List Str} (hl : l ∈ Data.ugbsHead) (hw : splitWs l = w :: ws) :
    w = "#".toList ∨ (w = "BASIS".toList ∧ ws.head? = some "\"ao".toList) := by
  have : (splitWs l).take 2 ∈ Data.ugbsHead.map (fun l => (splitWs l).take 2) := List.mem_map.mpr ⟨l, hl, rfl⟩
  rw [head_words, hw] at this
  cases ws with
  | nil =>
    simp only [List.take_succ_cons, List.take_nil, List.mem_cons, List.cons.injEq, and_true, List.not_mem_nil,
      reduceCtorEq, and_false, or_false, false_or] at this
    exact .inl this
  | cons k r =>
    simp only [List.take_succ_cons, List.take_zero, List.mem_cons, List.cons.injEq, and_true, List.not_mem_nil,
      reduceCtorEq, and_false, or_false, false_or] at this
    rcases this with h | h | h | h
    · exact .inl h.1
    · exact .inl h.1
    · exact .inl h.1
    · exact .inr ⟨h.1, by simp [h.2]⟩

/-- The text of the file. -/
theorem ugbs_text {low : Str → Str} {tf : Str → Py XR} (ht : ReadsFloats tf) (hl : LowersAscii low) {s : Str}
    (hs : Plain low s) :
    ∃ items, UgbsText low tf s items Data.ugbsLines ∧
      (∀ el sh z, UgbsItem.entry el sh z ∈ items → sh ∈ shellNames) ∧
      ∀ sh, ∃ l, ugbsOf low s [sh] items = fins l ∧ ((∀ b ∈ Data.ugbsBlocks, ¬ HasZ (low s) b.z) → l = []) ∧
        ∀ b ∈ Data.ugbsBlocks, HasZ (low s) b.z → (l ≠ [] ↔ sh ∈ shellsOf b.z) ∧ l.length = b.count sh ∧
          ∃ top, ShellOk l top := by
  obtain ⟨items, h1, h2, h3⟩ := blocks_text ht hl hs Data.ugbsBlocks Data.ugbsBlocks_ok
    (by rw [ugbs_elements]; decide +kernel)
  have e1 : UgbsText low tf s (List.replicate Data.ugbsHead.length .other) Data.ugbsHead := by
    refine others_text _ ?_
    intro l hl' w hw
    cases hsp : splitWs l with
    | nil => rw [hsp] at hw; simp at hw
    | cons w' ws =>
      rw [hsp] at hw
      simp only [List.head?_cons, Option.some.injEq] at hw
      subst hw
      rcases head_first hl' hsp with rfl | ⟨rfl, -⟩
      · rw [lower_lit hl (v := "#".toList) (by decide) (by decide)]
        exact Ne.symm hs.hash
      · rw [lower_lit hl (v := "basis".toList) (by decide) (by decide)]
        exact Ne.symm hs.basis
  have e2 : UgbsText low tf s (List.replicate Data.ugbsEnd.length .other) Data.ugbsEnd := by
    refine others_text _ ?_
    intro l hl' w hw
    have : splitWs l ∈ Data.ugbsEnd.map splitWs := List.mem_map.mpr ⟨l, hl', rfl⟩
    rw [end_words] at this
    simp only [List.mem_cons, List.not_mem_nil, or_false] at this
    rcases this with h | h <;> rw [h] at hw <;> simp at hw
    subst hw
    rw [lower_lit hl (v := "end".toList) (by decide) (by decide)]
    exact Ne.symm hs.fin
  refine ⟨_, e1.append (h1.append e2), ?_, ?_⟩
  · intro el sh z hm
    simp only [List.mem_append, List.mem_replicate, reduceCtorEq, and_false, false_or, or_false] at hm
    exact h2 el sh z hm
  · intro sh
    obtain ⟨l, l1, l2⟩ := h3 sh
    exact ⟨l, by rw [ugbsOf_append, ugbsOf_append, ugbsOf_others, ugbsOf_others, l1]; simp, l2⟩

/-- **C97** (elements).  The bundled UGBS file has data for hydrogen to lanthanum and hafnium to radon.  For
these `get_ugbs_exponents` returns, whatever the case of the letters in the symbol, lists under the keys `S`,
`P`, `D` and `F` and no others; those for the shells occupied in the element's period are not empty; and each
of them consists of consecutive members of the universal set `exp (0.12 + 0.672 k)`, `-6 ≤ k ≤ 27`, in
descending order, up to a factor `1 ± 5e-15`. -/
theorem C97_elements (low : Str → Str) (hl : LowersAscii low) (tf : Str → Py XR) (ht : ReadsFloats tf)
    (fs : Str → Option (List Str)) (dir : Str) (hf : fs (dir ++ "data/ygbs".toList) = some Data.ugbsLines)
    (s : Str) (z : ℕ) (hz : HasZ (low s) z) (hr : z ≤ 57 ∨ (72 ≤ z ∧ z ≤ 86)) :
    ∃ out, ugbsExponents low tf fs (dir ++ "parse_ugbs.py".toList) (.str s) = .ok out ∧
      (∀ k ∉ ["S".toList, "P".toList, "D".toList, "F".toList], out k = none) ∧
      ∀ sh ∈ ['S', 'P', 'D', 'F'], ∃ l : List ℝ, out [sh] = some (fins l) ∧ (l ≠ [] ↔ sh ∈ shellsOf z) ∧
        ∃ top, ShellOk l top := by
  obtain ⟨items, h1, h2, h3⟩ := ugbs_text ht hl (plain_hasZ hz)
  obtain ⟨out, o1, o2, o3⟩ := C72_exponents low tf fs dir s items _ hf h1 (fun el sh z hm _ => h2 el sh z hm)
  refine ⟨out, o1, o3, ?_⟩
  intro sh hsh
  obtain ⟨l, l1, -, l3⟩ := h3 sh
  obtain ⟨b, hb, hbz⟩ := (ugbs_mem z).mpr (by have := hz.1; omega)
  subst hbz
  obtain ⟨q1, -, q2⟩ := l3 b hb hz
  refine ⟨l, ?_, q1, q2⟩
  rw [← l1]
  refine o2 [sh] ?_
  fin_cases hsh <;> decide

/-- The number of exponents of each shell. -/
theorem ugbs_counts (low : Str → Str) (hl : LowersAscii low) (tf : Str → Py XR) (ht : ReadsFloats tf)
    (fs : Str → Option (List Str)) (dir : Str) (hf : fs (dir ++ "data/ygbs".toList) = some Data.ugbsLines)
    (s : Str) (b : UBlock) (hb : b ∈ Data.ugbsBlocks) (hz : HasZ (low s) b.z) :
    ∃ out, ugbsExponents low tf fs (dir ++ "parse_ugbs.py".toList) (.str s) = .ok out ∧
      ∀ sh ∈ ['S', 'P', 'D', 'F'], ∃ l : List ℝ, out [sh] = some (fins l) ∧ l.length = b.count sh := by
  obtain ⟨items, h1, h2, h3⟩ := ugbs_text ht hl (plain_hasZ hz)
  obtain ⟨out, o1, o2, o3⟩ := C72_exponents low tf fs dir s items _ hf h1 (fun el sh z hm _ => h2 el sh z hm)
  refine ⟨out, o1, fun sh hsh => ?_⟩
  obtain ⟨l, l1, -, l3⟩ := h3 sh
  refine ⟨l, ?_, (l3 b hb hz).2.1⟩
  rw [← l1]
  refine o2 [sh] ?_
  fin_cases hsh <;> decide

/-- **C97** (everything else).  For any other string, in particular for the lanthanides and the elements after
radon, although the head of the file lists them, the four lists are empty.  The exceptions are the words at the
start of the other lines of the file (`C97_errors`). -/
theorem C97_other (low : Str → Str) (hl : LowersAscii low) (tf : Str → Py XR) (ht : ReadsFloats tf)
    (fs : Str → Option (List Str)) (dir : Str) (hf : fs (dir ++ "data/ygbs".toList) = some Data.ugbsLines)
    (s : Str) (hs : ∀ z, HasZ (low s) z → (58 ≤ z ∧ z ≤ 71) ∨ 87 ≤ z)
    (hd : ∀ c r, low s = c :: r → c.isDigit = true →
      ∀ l ∈ Data.ugbsLines, ∀ w ws, Words l (w :: ws) → low w ≠ low s)
    (hw : low s ∉ ["#".toList, "basis".toList, "#basis".toList, "end".toList]) :
    ∃ out, ugbsExponents low tf fs (dir ++ "parse_ugbs.py".toList) (.str s) = .ok out ∧
      (∀ k ∉ ["S".toList, "P".toList, "D".toList, "F".toList], out k = none) ∧
      ∀ k ∈ ["S".toList, "P".toList, "D".toList, "F".toList], out k = some [] := by
  simp only [List.mem_cons, List.not_mem_nil, or_false, not_or] at hw
  by_cases hdig : ∃ c r, low s = c :: r ∧ c.isDigit = true
  · obtain ⟨c, r, h1, h2⟩ := hdig
    have htx : UgbsText low tf s (List.replicate Data.ugbsLines.length .other) Data.ugbsLines := by
      refine others_text _ fun l hm w hw' => ?_
      cases hsp : splitWs l with
      | nil => rw [hsp] at hw'; simp at hw'
      | cons w' ws =>
        rw [hsp] at hw'
        simp only [List.head?_cons, Option.some.injEq] at hw'
        subst hw'
        exact hd c r h1 h2 l hm _ ws (words_iff.2 hsp)
    obtain ⟨out, o1, o2, o3⟩ := C72_exponents low tf fs dir s _ _ hf htx
      (fun el sh z hm _ => by simp [List.mem_replicate] at hm)
    refine ⟨out, o1, o3, fun k hk => ?_⟩
    rw [o2 k hk, ugbsOf_others]
  obtain ⟨items, h1, h2, h3⟩ := ugbs_text ht hl (s := s)
    ⟨fun c r h => by simpa using fun hc => hdig ⟨c, r, h, hc⟩, hw.1, hw.2.1, hw.2.2.1, hw.2.2.2⟩
  obtain ⟨out, o1, o2, o3⟩ := C72_exponents low tf fs dir s items _ hf h1 (fun el sh z hm _ => h2 el sh z hm)
  refine ⟨out, o1, o3, ?_⟩
  intro k hk
  have hno : ∀ b ∈ Data.ugbsBlocks, ¬ HasZ (low s) b.z := by
    intro b hb hz
    have h1 := (ugbs_mem b.z).mp ⟨b, hb, rfl⟩
    have h2 := hs b.z hz
    omega
  obtain ⟨sh, rfl⟩ : ∃ sh, k = [sh] := by
    fin_cases hk <;> exact ⟨_, rfl⟩
  obtain ⟨l, l1, l2, -⟩ := h3 sh
  rw [o2 _ hk, l1, l2 hno]
  rfl

/-! ### Names that raise an exception -/

theorem ugbs_skip_all (low : Str → Str) (tf : Str → Py XR) (s : Str) (pre post : List Str)
    (out : Str → Option (List XR)) (h : ∀ l ∈ pre, ∀ w ws, splitWs l = w :: ws → low w ≠ low s) :
    ugbsLoop low tf s (pre ++ post) out = ugbsLoop low tf s post out := by
  induction pre with
  | nil => rfl
  | cons l pre ih =>
    rw [List.cons_append, ugbs_skip low tf s l _ out (fun w ws hw => h l (by simp) w ws (words_iff.1 hw)),
      ih fun l' hl' => h l' (List.mem_cons_of_mem _ hl')]

/-- The first line that starts with the name names a key that does not exist. -/
theorem ugbs_key (low : Str → Str) (tf : Str → Py XR) (s l w k : Str) (ws rest : List Str)
    (out : Str → Option (List XR)) (hl : splitWs l = w :: k :: ws) (hw : low w = low s) (hk : out k = none) :
    ugbsLoop low tf s (l :: rest) out = raise .keyError := by
  cases rest with
  | nil =>
    unfold ugbsLoop
    rw [hl]
    simp only [hw, if_true, hk]
  | cons m rest =>
    unfold ugbsLoop
    rw [hl]
    simp only [hw, if_true, hk]

theorem ugbs_keys (low : Str → Str) (tf : Str → Py XR) (s : Str) (lines : List Str)
    (out : Str → Option (List XR))
    (hall : ∀ l ∈ lines, ∀ w ws, splitWs l = w :: ws → low w = low s → ∃ k r, ws = k :: r ∧ out k = none)
    (hex : ∃ l ∈ lines, ∃ w ws, splitWs l = w :: ws ∧ low w = low s) :
    ugbsLoop low tf s lines out = raise .keyError := by
  induction lines with
  | nil =>
    obtain ⟨l, hl, -⟩ := hex
    simp at hl
  | cons l lines ih =>
    by_cases h : ∃ w ws, splitWs l = w :: ws ∧ low w = low s
    · obtain ⟨w, ws, h1, h2⟩ := h
      obtain ⟨k, r, rfl, hk⟩ := hall l (by simp) w ws h1 h2
      exact ugbs_key low tf s l w k r lines out h1 h2 hk
    · rw [ugbs_skip low tf s l lines out (fun w ws hw he => h ⟨w, ws, words_iff.1 hw, he⟩)]
      refine ih (fun l' hl' => hall l' (List.mem_cons_of_mem _ hl')) ?_
      obtain ⟨l', hl', w, ws, h1, h2⟩ := hex
      rcases List.mem_cons.mp hl' with rfl | hl'
      · exact absurd ⟨w, ws, h1, h2⟩ h
      · exact ⟨l', hl', w, ws, h1, h2⟩

theorem pairs_lines {tf : Str → Py XR} (ht : ReadsFloats tf) {el : Str} {xs : List (Char × ℕ)} {ls : List Str}
    (hx : ∀ x ∈ xs, x.2 < 34) (h : pairsOk el xs ls = true) {l w : Str} {ws : List Str} (hl : l ∈ ls)
    (hw : splitWs l = w :: ws) :
    w = el ∨ ((∃ c r, w = c :: r ∧ c.isDigit = true) ∧ (∀ c ∈ w, c.toNat < 128) ∧ ws = ["1.0000000".toList]) := by
  induction xs generalizing ls with
  | nil =>
    have : ls = [] := by simpa [pairsOk] using h
    subst this
    simp at hl
  | cons x xs ih =>
    obtain ⟨sh, k⟩ := x
    match ls, h with
    | [], h => simp [pairsOk] at h
    | [_], h => simp [pairsOk] at h
    | l1 :: l2 :: ls, h =>
      rw [pairsOk, Bool.and_eq_true] at h
      have hp := pairOk_sound (hx (sh, k) (by simp)) h.1 ht
      simp only [List.mem_cons] at hl
      rcases hl with rfl | rfl | hl
      · rw [hp.fst] at hw
        exact .inl (List.cons.inj hw).1.symm
      · obtain ⟨c, r, h2, hc, hr, -⟩ := hp.snd
        rw [h2] at hw
        obtain ⟨rfl, rfl⟩ := List.cons.inj hw
        exact .inr ⟨⟨c, r, rfl, hc⟩, hr, rfl⟩
      · exact ih (fun x hx' => hx x (List.mem_cons_of_mem _ hx')) h.2 hl

/-- How the lines in front of `END` start. -/
inductive LineStart (low : Str → Str) (w : Str) (ws : List Str) : Prop
  | hash (h : low w = "#".toList)
  | basis (h : low w = "basis".toList) (k : ws.head? = some "\"ao".toList)
  | hbasis (h : low w = "#basis".toList) (k : ws.head? = some "SET:".toList)
  | element (z : ℕ) (h : HasZ (low w) z)
  | number (h : ∃ c r, low w = c :: r ∧ c.isDigit = true) (k : ws.head? = some "1.0000000".toList)

theorem line_start {low : Str → Str} (hl : LowersAscii low) {tf : Str → Py XR} (ht : ReadsFloats tf) {l w : Str}
    {ws : List Str} (hm : l ∈ Data.ugbsHead ++ Data.ugbsBlocks.flatMap UBlock.lines) (hw : splitWs l = w :: ws) :
    LineStart low w ws := by
  rcases List.mem_append.mp hm with hm | hm
  · rcases head_first hm hw with rfl | ⟨rfl, hk⟩
    · exact .hash (lower_lit hl (by decide) (by decide))
    · exact .basis (lower_lit hl (by decide) (by decide)) hk
  · obtain ⟨b, hb, hm⟩ := List.mem_flatMap.mp hm
    have hg := UBlock.good (Data.ugbsBlocks_ok b hb)
    obtain ⟨c, ls, x, h1, h2, h3⟩ := hg.lines
    rw [h1] at hm
    rcases List.mem_cons.mp hm with rfl | hm
    · rw [h2] at hw
      obtain ⟨rfl, rfl⟩ := List.cons.inj hw
      exact .hbasis (lower_lit hl (by decide) (by decide)) rfl
    · rcases pairs_lines ht (fun x hx => (expand_lt hg.shells hx).1) h3 hm hw with rfl | ⟨⟨c, r, rfl, hc⟩, ha, rfl⟩
      · exact .element b.z (hg.low hl)
      · obtain ⟨r', hr'⟩ := low_digit hl hc ha
        exact .number ⟨c, r', hr', hc⟩ rfl

/-- **C97** (errors).  A request for a word at the start of a comment, of the `BASIS` line or of a line with a
number is a `KeyError`, a request for `END` an `IndexError`. -/
theorem C97_errors (low : Str → Str) (hl : LowersAscii low) (tf : Str → Py XR) (ht : ReadsFloats tf)
    (fs : Str → Option (List Str)) (dir : Str) (hf : fs (dir ++ "data/ygbs".toList) = some Data.ugbsLines)
    (s : Str) :
    (low s ∈ ["#".toList, "basis".toList, "#basis".toList] →
      ugbsExponents low tf fs (dir ++ "parse_ugbs.py".toList) (.str s) = raise .keyError) ∧
    (∀ l ∈ Data.ugbsLines, ∀ w ws, Words l (w :: ws) → low w = low s →
      (∃ c r, low s = c :: r ∧ c.isDigit = true) →
      ugbsExponents low tf fs (dir ++ "parse_ugbs.py".toList) (.str s) = raise .keyError) ∧
    (low s = "end".toList →
      ugbsExponents low tf fs (dir ++ "parse_ugbs.py".toList) (.str s) = raise .indexError) := by
  have hp : ugbsPath (dir ++ "parse_ugbs.py".toList) = dir ++ "data/ygbs".toList := by
    unfold ugbsPath
    rw [show (dir ++ "parse_ugbs.py".toList).length - 13 = dir.length by
      rw [List.length_append, show ("parse_ugbs.py".toList).length = 13 from rfl]; omega]
    rw [List.take_left]
  have hrun : ugbsExponents low tf fs (dir ++ "parse_ugbs.py".toList) (.str s) =
      ugbsLoop low tf s Data.ugbsLines emptyDict := by
    unfold ugbsExponents
    simp only
    rw [hp, hf]
  have hend : ∀ l ∈ Data.ugbsEnd, ∀ w ws, splitWs l = w :: ws → w = "END".toList := by
    intro l hl' w ws hw
    have : splitWs l ∈ Data.ugbsEnd.map splitWs := List.mem_map.mpr ⟨l, hl', rfl⟩
    rw [end_words, hw] at this
    simp only [List.mem_cons, List.cons.injEq, reduceCtorEq, List.not_mem_nil, or_false] at this
    exact this.1
  have hlend : low "END".toList = "end".toList := lower_lit hl (by decide) (by decide)
  have hlines : ∀ l ∈ Data.ugbsLines, ∀ w ws, splitWs l = w :: ws →
      LineStart low w ws ∨ low w = "end".toList := by
    intro l hm w ws hw
    unfold Data.ugbsLines at hm
    rw [← List.append_assoc] at hm
    rcases List.mem_append.mp hm with hm | hm
    · exact .inl (line_start hl ht hm hw)
    · rw [hend l hm w ws hw]
      exact .inr hlend
  have hkey : ∀ (k : Str), k ∈ ["\"ao".toList, "SET:".toList, "1.0000000".toList] →
      (emptyDict k : Option (List XR)) = none := by
    intro k hk
    apply emptyDict_other
    fin_cases hk <;> decide
  have hhead : ∀ (ws : List Str) (k : Str), ws.head? = some k → ∃ r, ws = k :: r := by
    intro ws k h
    cases ws with
    | nil => simp at h
    | cons a r =>
      simp only [List.head?_cons, Option.some.injEq] at h
      exact ⟨r, by rw [h]⟩
  refine ⟨?_, ?_, ?_⟩
  · intro hs
    rw [hrun]
    simp only [List.mem_cons, List.not_mem_nil, or_false] at hs
    have hnz : ∀ z, ¬ HasZ (low s) z := by
      intro z hz
      have := plain_hasZ hz
      rcases hs with h | h | h
      exacts [this.hash h, this.basis h, this.hbasis h]
    by_cases h : low s = "#".toList
    · have e : Data.ugbsHead = Data.ugbsHead.headD [] :: Data.ugbsHead.tail := by decide +kernel
      have e2 : splitWs (Data.ugbsHead.headD []) = ["#".toList, "Elements".toList, "References".toList] := by
        decide +kernel
      unfold Data.ugbsLines
      rw [e, List.cons_append]
      refine ugbs_key low tf s _ _ _ _ _ _ e2 ?_ (emptyDict_other _ (by decide))
      rw [h]
      exact lower_lit hl (by decide) (by decide)
    · refine ugbs_keys low tf s _ _ ?_ ?_
      · intro l hm w ws hw he
        rcases hlines l hm w ws hw with hc | hc
        · cases hc with
          | hash h' => exact absurd (he ▸ h') h
          | basis _ k =>
            obtain ⟨r, rfl⟩ := hhead ws _ k
            exact ⟨_, r, rfl, hkey _ (by simp)⟩
          | hbasis _ k =>
            obtain ⟨r, rfl⟩ := hhead ws _ k
            exact ⟨_, r, rfl, hkey _ (by simp)⟩
          | element z hz => exact absurd (he ▸ hz) (hnz z)
          | number _ k =>
            obtain ⟨r, rfl⟩ := hhead ws _ k
            exact ⟨_, r, rfl, hkey _ (by simp)⟩
        · rw [he] at hc
          rcases hs with h | h | h <;> rw [h] at hc <;> exact absurd hc (by decide)
      · rcases hs with h' | h' | h'
        · exact absurd h' h
        · have e2 : splitWs (Data.ugbsHead.getLastD []) = ["BASIS".toList, "\"ao".toList, "basis\"".toList,
              "PRINT".toList] := by decide +kernel
          refine ⟨Data.ugbsHead.getLastD [], ?_, _, _, e2, ?_⟩
          · unfold Data.ugbsLines
            refine List.mem_append_left _ ?_
            have e : Data.ugbsHead = Data.ugbsHead.dropLast ++ [Data.ugbsHead.getLastD []] := by decide +kernel
            have hh : Data.ugbsHead.getLastD [] ∈ Data.ugbsHead.dropLast ++ [Data.ugbsHead.getLastD []] := by simp
            rwa [← e] at hh
          · rw [h']
            exact lower_lit hl (by decide) (by decide)
        · obtain ⟨b, hb, -⟩ := (ugbs_mem 1).mpr (by omega)
          obtain ⟨c, ls, x, h1, h2, -⟩ := (UBlock.good (Data.ugbsBlocks_ok b hb)).lines
          refine ⟨c, ?_, _, _, h2, ?_⟩
          · unfold Data.ugbsLines
            refine List.mem_append_right _ (List.mem_append_left _ (List.mem_flatMap.mpr ⟨b, hb, ?_⟩))
            rw [h1]
            simp
          · rw [h']
            exact lower_lit hl (by decide) (by decide)
  · intro l hm w ws hw hs hdig
    rw [hrun]
    refine ugbs_keys low tf s _ _ ?_ ⟨l, hm, _, ws, (words_iff.1 hw), hs⟩
    obtain ⟨c', r', h1, h2⟩ := hdig
    intro l' hm' w' ws' hw' he
    rcases hlines l' hm' w' ws' hw' with hc | hc
    · cases hc with
      | hash h' =>
        rw [he, h1] at h'
        rw [(List.cons.inj h').1] at h2
        exact absurd h2 (by decide)
      | basis h' =>
        rw [he, h1] at h'
        rw [(List.cons.inj h').1] at h2
        exact absurd h2 (by decide)
      | hbasis h' =>
        rw [he, h1] at h'
        rw [(List.cons.inj h').1] at h2
        exact absurd h2 (by decide)
      | element z hz =>
        rw [he] at hz
        rw [(plain_hasZ hz).digit c' r' h1] at h2
        simp at h2
      | number _ k =>
        obtain ⟨r, rfl⟩ := hhead ws' _ k
        exact ⟨_, r, rfl, hkey _ (by simp)⟩
    · rw [he, h1] at hc
      rw [(List.cons.inj hc).1] at h2
      exact absurd h2 (by decide)
  · intro hs
    rw [hrun]
    unfold Data.ugbsLines
    rw [← List.append_assoc, ugbs_skip_all]
    · have e : Data.ugbsEnd = [Data.ugbsEnd.headD [], Data.ugbsEnd.getLastD []] := by decide +kernel
      have e2 : splitWs (Data.ugbsEnd.headD []) = ["END".toList] := by decide +kernel
      rw [e]
      unfold ugbsLoop
      rw [e2]
      simp only [hlend, hs, if_true]
    · intro l hm w ws hw he
      rw [hs] at he
      cases line_start hl ht hm hw with
      | hash h => rw [he] at h; exact absurd h (by decide)
      | basis h => rw [he] at h; exact absurd h (by decide)
      | hbasis h => rw [he] at h; exact absurd h (by decide)
      | element z hz =>
        have := (plain_hasZ (s := w) hz).fin
        exact this he
      | number h =>
        obtain ⟨c, r, h1, h2⟩ := h
        rw [he] at h1
        rw [← (List.cons.inj h1).1] at h2
        exact absurd h2 (by decide)

/-! ### Examples -/

/-- Reads decimal numbers with and without an exponent. -/
def readSci (w : Str) : ℝ :=
  readDec (w.takeWhile (· != 'E')) / 10 ^ decDigits ((w.dropWhile (· != 'E')).drop 2)

theorem dec_no_E {w : Str} {x : ℝ} (h : DecText w x) : ∀ c ∈ w, (c != 'E') = true := by
  obtain ⟨a, neg, d, d', b, rfl, ha, hb, -, hd, hd', -⟩ := h
  have hsp : ∀ c : Char, isSpace c = true → (c != 'E') = true := by
    intro c hc
    rw [bne_iff_ne]
    rintro rfl
    exact absurd hc (by decide)
  have hdi : ∀ c : Char, c.isDigit = true → (c != 'E') = true := by
    intro c hc
    rw [bne_iff_ne]
    rintro rfl
    exact absurd hc (by decide)
  intro c hc
  simp only [List.mem_append, List.mem_cons] at hc
  rcases hc with hc | hc | hc | rfl | hc | hc
  · exact hsp c (ha.space c hc)
  · cases neg with
    | true =>
      simp at hc
      rw [hc]
      decide
    | false => simp at hc
  · exact hdi c (hd c hc)
  · decide
  · exact hdi c (hd' c hc)
  · exact hsp c (hb.space c hc)

/-- A reader as in `C97_elements`. -/
theorem reads_floats_example : ReadsFloats fun w => .ok (.fin (readSci w)) := by
  refine ⟨fun w x h => ?_, fun w x h => ?_⟩
  · obtain ⟨e1, e2⟩ := takeWhile_append_stop w [] (dec_no_E h) (by simp)
    rw [List.append_nil] at e1 e2
    simp only [readSci, e1, e2, readDec_eq h]
    simp [decDigits]
  · obtain ⟨m, d, y, rfl, hm, -, -, -, rfl⟩ := h
    obtain ⟨e1, e2⟩ := takeWhile_append_stop m ('E' :: '-' :: d) (dec_no_E hm) (by
      intro c hc
      simp at hc
      rw [← hc]
      decide)
    simp only [readSci, e1, e2, readDec_eq hm]
    simp

/-- Silver has s, p and d functions and no f functions, cerium and an unknown word have none, `end` raises an
`IndexError` and `BASIS` a `KeyError`. -/
theorem ugbs_example :
    let low : Str → Str := fun s => s.map Char.toLower
    let tf : Str → Py XR := fun w => .ok (.fin (readSci w))
    let fs : Str → Option (List Str) := fun p => if p = "/x/data/ygbs".toList then some Data.ugbsLines else none
    let run := fun s : String => ugbsExponents low tf fs "/x/parse_ugbs.py".toList (.str s.toList)
    (∃ out l, run "AG" = .ok out ∧ out "D".toList = some (fins l) ∧ l ≠ [] ∧ out "F".toList = some []) ∧
      (∃ out, run "Ce" = .ok out ∧ out "S".toList = some []) ∧ (∃ out, run "foo" = .ok out ∧ out "S".toList = some []) ∧
      run "End" = raise .indexError ∧ run "BASIS" = raise .keyError := by
  intro low tf fs run
  have hl : LowersAscii low := fun w _ => rfl
  have hf : fs ("/x/".toList ++ "data/ygbs".toList) = some Data.ugbsLines := if_pos (by decide)
  have hp : "/x/".toList ++ "parse_ugbs.py".toList = "/x/parse_ugbs.py".toList := by decide
  have A := C97_elements low hl tf reads_floats_example fs "/x/".toList hf "AG".toList 47
    ⟨by decide +kernel, by decide +kernel⟩ (Or.inl (by norm_num))
  have B := C97_other low hl tf reads_floats_example fs "/x/".toList hf "Ce".toList
    (fun z hz => by
      have h58 : HasZ (low "Ce".toList) 58 := ⟨by decide +kernel, by decide +kernel⟩
      have := hasZ_unique hz h58
      omega)
    (fun c r h hd => by
      have : c = 'c' := (List.cons.inj (h.symm.trans (by decide : low "Ce".toList = ['c', 'e']))).1
      rw [this] at hd
      exact absurd hd (by decide)) (by decide)
  have C := C97_other low hl tf reads_floats_example fs "/x/".toList hf "foo".toList
    (fun z hz => by
      exfalso
      have : low "foo".toList ∉ symbols := by decide +kernel
      exact this (List.mem_of_getElem? hz.2))
    (fun c r h hd => by
      have : c = 'f' := (List.cons.inj (h.symm.trans (by decide : low "foo".toList = ['f', 'o', 'o']))).1
      rw [this] at hd
      exact absurd hd (by decide)) (by decide)
  rw [hp] at A B C
  refine ⟨?_, ?_, ?_, ?_, ?_⟩
  · obtain ⟨out, h1, -, h3⟩ := A
    obtain ⟨l, l1, l2, -⟩ := h3 'D' (by decide)
    obtain ⟨l', k1, k2, -⟩ := h3 'F' (by decide)
    refine ⟨out, l, h1, l1, l2.mpr (by decide), ?_⟩
    have : l' = [] := by
      by_contra hne
      exact absurd (k2.mp hne) (by decide)
    rw [this] at k1
    exact k1
  · obtain ⟨out, h1, -, h3⟩ := B
    exact ⟨out, h1, h3 _ (by decide)⟩
  · obtain ⟨out, h1, -, h3⟩ := C
    exact ⟨out, h1, h3 _ (by decide)⟩
  · have := (C97_errors low hl tf reads_floats_example fs "/x/".toList hf "End".toList).2.2 (by decide)
    rwa [hp] at this
  · have := (C97_errors low hl tf reads_floats_example fs "/x/".toList hf "BASIS".toList).1 (by decide)
    rwa [hp] at this

end
end BFit
