import Verif.Props.Ugbs

/-! Property C111: truncated and malformed UGBS files. -/

namespace BFit

open Classical

noncomputable section

/-- The entries of the element have one of the four shells. -/
def GoodShells (low : Str → Str) (element : Str) (items : List UgbsItem) : Prop :=
  ∀ el sh z, UgbsItem.entry el sh z ∈ items → low el = low element →
    sh ∈ ["S".toList, "P".toList, "D".toList, "F".toList]

/-- The result is the dictionary with the exponents of the items. -/
def ReturnsItems (low : Str → Str) (element : Str) (items : List UgbsItem)
    (res : Py (Str → Option (List XR))) : Prop :=
  ∃ out, res = .ok out ∧
    (∀ k ∈ ["S".toList, "P".toList, "D".toList, "F".toList], out k = some (ugbsOf low element k items)) ∧
    ∀ k ∉ ["S".toList, "P".toList, "D".toList, "F".toList], out k = none

theorem fault_raises {low : Str → Str} {tf : Str → Py XR} {element : Str} {bad : List Str} {e : PyErr}
    (h : UgbsFault low tf element bad e) (out : Str → Option (List XR))
    (h1 : ∀ k ∈ shellNames, ∃ l, out k = some l) (h2 : ∀ k ∉ shellNames, out k = none) :
    ugbsLoop low tf element bad out = .error e := by
  cases h with
  | @noShell l w rest h he =>
    cases rest <;> simp [ugbsLoop, words_iff.1 h, he, raise]
  | @badShell l w k r rest h he hk =>
    cases rest <;> simp [ugbsLoop, words_iff.1 h, he, raise, h2 k hk]
  | @noLine l w k r h he hk =>
    obtain ⟨x, hx⟩ := h1 k hk
    simp [ugbsLoop, words_iff.1 h, he, raise, hx]
  | @blank l w k l2 r rest h he hk hb =>
    obtain ⟨x, hx⟩ := h1 k hk
    have : splitWs l2 = [] := blank_iff.1 hb
    simp [ugbsLoop, words_iff.1 h, he, raise, hx, this]
  | @notNumber l w k l2 v r r2 rest e h he hk hw hv =>
    obtain ⟨x, hx⟩ := h1 k hk
    simp [ugbsLoop, words_iff.1 h, he, hx, words_iff.1 hw, hv]

/-- **C111** (malformed).  After any number of correct entries, a malformed entry of the element raises: an
IndexError without shell or without a line with a number, a KeyError for a shell other than the four, the
exception of `float` for text that is no number. -/
theorem C111_malformed (low : Str → Str) (tf : Str → Py XR) (fs : Str → Option (List Str)) (dir : Str)
    (element : Str) (items : List UgbsItem) (pre bad : List Str) (e : PyErr)
    (hf : fs (dir ++ "data/ygbs".toList) = some (pre ++ bad)) (ht : UgbsText low tf element items pre)
    (hs : GoodShells low element items) (hb : UgbsFault low tf element bad e) :
    ugbsExponents low tf fs (dir ++ "parse_ugbs.py".toList) (.str element) = .error e := by
  obtain ⟨out, h1, h2⟩ := ugbs_loop_append ht hs bad emptyDict (fun k hk => ⟨[], emptyDict_shell k hk⟩)
  unfold ugbsExponents
  rw [ugbsPath_dir, hf]
  refine h1.trans (fault_raises hb out (fun k hk => ?_) fun k hk => ?_)
  · exact ⟨_, by rw [h2, emptyDict_shell k hk]; rfl⟩
  · rw [h2, emptyDict_other k hk]
    rfl

/-- Every text consists of correct entries and other lines, or of some of them and a malformed entry. -/
theorem ugbs_cases (low : Str → Str) (tf : Str → Py XR) (element : Str) (n : ℕ) (lines : List Str)
    (hn : lines.length ≤ n) :
    (∃ items, UgbsText low tf element items lines ∧ GoodShells low element items) ∨
    ∃ items pre bad e, lines = pre ++ bad ∧ UgbsText low tf element items pre ∧
      GoodShells low element items ∧ UgbsFault low tf element bad e := by
  induction n generalizing lines with
  | zero =>
    rw [List.length_eq_zero_iff.mp (Nat.le_zero.mp hn)]
    exact .inl ⟨[], .nil, by intro _ _ _ h; simp at h⟩
  | succ n ih =>
    have nil : GoodShells low element [] := by intro _ _ _ h; simp at h
    match lines with
    | [] => exact .inl ⟨[], .nil, nil⟩
    | l :: rest =>
      have skip : (∀ w ws, Words l (w :: ws) → low w ≠ low element) →
          (∃ items, UgbsText low tf element items (l :: rest) ∧ GoodShells low element items) ∨
          ∃ items pre bad e, l :: rest = pre ++ bad ∧ UgbsText low tf element items pre ∧
            GoodShells low element items ∧ UgbsFault low tf element bad e := by
        intro h
        rcases ih rest (by simpa using hn) with ⟨items, h1, h2⟩ | ⟨items, pre, bad, e, h1, h2, h3, h4⟩
        · exact .inl ⟨.other :: items, .other h h1, fun el sh z hm => h2 el sh z (by simpa using hm)⟩
        · exact .inr ⟨.other :: items, l :: pre, bad, e, by rw [h1, List.cons_append], .other h h2,
            fun el sh z hm => h3 el sh z (by simpa using hm), h4⟩
      have fault : ∀ e, UgbsFault low tf element (l :: rest) e →
          ∃ items pre bad e, l :: rest = pre ++ bad ∧ UgbsText low tf element items pre ∧
            GoodShells low element items ∧ UgbsFault low tf element bad e :=
        fun e h => ⟨[], [], _, e, rfl, .nil, nil, h⟩
      cases hw : splitWs l with
      | nil =>
        refine skip fun w ws h => ?_
        rw [words_iff, hw] at h
        cases h
      | cons w ws =>
        by_cases he : low w = low element
        · cases ws with
          | nil => exact .inr (fault _ (.noShell (words_iff.2 hw) he))
          | cons k r =>
            by_cases hk : k ∈ ["S".toList, "P".toList, "D".toList, "F".toList]
            · cases rest with
              | nil => exact .inr (fault _ (.noLine (words_iff.2 hw) he hk))
              | cons l2 rest =>
                cases hw2 : splitWs l2 with
                | nil => exact .inr (fault _ (.blank (words_iff.2 hw) he hk (blank_iff.2 hw2)))
                | cons v r2 =>
                  cases hv : tf v with
                  | error e => exact .inr (fault _ (.notNumber (words_iff.2 hw) he hk (words_iff.2 hw2) hv))
                  | ok z =>
                    have good : ∀ items, GoodShells low element items →
                        GoodShells low element (.entry w k z :: items) := by
                      intro items h el sh z' hm hel
                      rcases List.mem_cons.1 hm with hm | hm
                      · cases hm
                        exact hk
                      · exact h el sh z' hm hel
                    rcases ih rest (by simp only [List.length_cons] at hn; omega) with
                      ⟨items, h1, h2⟩ | ⟨items, pre, bad, e, h1, h2, h3, h4⟩
                    · exact .inl ⟨_, .entry (words_iff.2 hw) (words_iff.2 hw2) hv (.inl he) h1, good _ h2⟩
                    · exact .inr ⟨_, l :: l2 :: pre, bad, e, by rw [h1]; rfl,
                        .entry (words_iff.2 hw) (words_iff.2 hw2) hv (.inl he) h2, good _ h3, h4⟩
            · exact .inr (fault _ (.badShell (words_iff.2 hw) he hk))
        · refine skip fun w' ws' h => ?_
          rw [words_iff, hw] at h
          cases h
          exact he

/-- **C111** (every file).  Whatever the file holds, the function either returns exactly the exponents of the
entries of the element, all of which are correct then, or raises the exception of the first malformed entry. -/
theorem C111_total (low : Str → Str) (tf : Str → Py XR) (fs : Str → Option (List Str)) (dir : Str)
    (element : Str) (lines : List Str) (hf : fs (dir ++ "data/ygbs".toList) = some lines) :
    (∃ items, UgbsText low tf element items lines ∧ GoodShells low element items ∧
      ReturnsItems low element items
        (ugbsExponents low tf fs (dir ++ "parse_ugbs.py".toList) (.str element))) ∨
    ∃ items pre bad e, lines = pre ++ bad ∧ UgbsText low tf element items pre ∧
      GoodShells low element items ∧ UgbsFault low tf element bad e ∧
      ugbsExponents low tf fs (dir ++ "parse_ugbs.py".toList) (.str element) = .error e := by
  rcases ugbs_cases low tf element _ lines le_rfl with ⟨items, h1, h2⟩ | ⟨items, pre, bad, e, rfl, h2, h3, h4⟩
  · exact .inl ⟨items, h1, h2, C72_exponents low tf fs dir element items lines hf h1 h2⟩
  · exact .inr ⟨items, pre, bad, e, rfl, h2, h3, h4,
      C111_malformed low tf fs dir element items pre bad e hf h2 h3 h4⟩

theorem goodShells_take {low : Str → Str} {element : Str} {items : List UgbsItem}
    (h : GoodShells low element items) (m : ℕ) : GoodShells low element (items.take m) :=
  fun el sh z hm => h el sh z (List.mem_of_mem_take hm)

theorem ugbsText_cut {low : Str → Str} {tf : Str → Py XR} {element : Str} {items : List UgbsItem}
    {lines : List Str} (ht : UgbsText low tf element items lines) (n : ℕ) :
    (∃ m, UgbsText low tf element (items.take m) (lines.take n)) ∨
    ∃ m el sh z l r, items[m]? = some (.entry el sh z) ∧ Words l (el :: sh :: r) ∧ 1 ≤ n ∧
      UgbsText low tf element (items.take m) (lines.take (n - 1)) ∧ lines.take n = lines.take (n - 1) ++ [l] := by
  induction ht generalizing n with
  | nil => exact .inl ⟨0, by simpa using .nil⟩
  | @other l items lines h rest ih =>
    cases n with
    | zero => exact .inl ⟨0, .nil⟩
    | succ n =>
      rcases ih n with ⟨m, h1⟩ | ⟨m, el, sh, z, l', r, h1, h2, h3, h4, h5⟩
      · exact .inl ⟨m + 1, .other h h1⟩
      · obtain ⟨n, rfl⟩ : ∃ k, n = k + 1 := ⟨n - 1, by omega⟩
        refine .inr ⟨m + 1, el, sh, z, l', r, h1, h2, by omega, .other h h4, ?_⟩
        rw [List.take_succ_cons, h5]
        rfl
  | @entry el shell w z l1 l2 r1 r2 items lines h1 h2 hz hw rest ih =>
    match n with
    | 0 => exact .inl ⟨0, .nil⟩
    | 1 => exact .inr ⟨0, el, shell, z, l1, r1, rfl, h1, le_rfl, .nil, rfl⟩
    | n + 2 =>
      rcases ih n with ⟨m, g1⟩ | ⟨m, el', sh, z', l', r, g1, g2, g3, g4, g5⟩
      · exact .inl ⟨m + 1, .entry h1 h2 hz hw g1⟩
      · obtain ⟨n, rfl⟩ : ∃ k, n = k + 1 := ⟨n - 1, by omega⟩
        refine .inr ⟨m + 1, el', sh, z', l', r, g1, g2, by omega, .entry h1 h2 hz hw g4, ?_⟩
        rw [List.take_succ_cons, List.take_succ_cons, g5]
        rfl

/-- **C111** (cut off).  A file in the format that is cut off after any of its lines gives the exponents of the
entries before the cut, without any error, unless the cut separates the two lines of an entry of the element:
only then IndexError is raised. -/
theorem C111_cut (low : Str → Str) (tf : Str → Py XR) (fs : Str → Option (List Str)) (dir : Str)
    (element : Str) (items : List UgbsItem) (lines : List Str) (ht : UgbsText low tf element items lines)
    (hs : GoodShells low element items) (n : ℕ)
    (hf : fs (dir ++ "data/ygbs".toList) = some (lines.take n)) :
    (∃ m, UgbsText low tf element (items.take m) (lines.take n) ∧
      ReturnsItems low element (items.take m)
        (ugbsExponents low tf fs (dir ++ "parse_ugbs.py".toList) (.str element))) ∨
    ∃ m el sh z, items[m]? = some (.entry el sh z) ∧
      UgbsText low tf element (items.take m) (lines.take (n - 1)) ∧
      (low el ≠ low element → ReturnsItems low element (items.take m)
        (ugbsExponents low tf fs (dir ++ "parse_ugbs.py".toList) (.str element))) ∧
      (low el = low element →
        ugbsExponents low tf fs (dir ++ "parse_ugbs.py".toList) (.str element) = .error .indexError) := by
  rcases ugbsText_cut ht n with ⟨m, h1⟩ | ⟨m, el, sh, z, l, r, h1, h2, h3, h4, h5⟩
  · exact .inl ⟨m, h1, C72_exponents low tf fs dir element _ _ hf h1 (goodShells_take hs m)⟩
  · have hm : UgbsItem.entry el sh z ∈ items := List.mem_of_getElem? h1
    refine .inr ⟨m, el, sh, z, h1, h4, fun he => ?_, fun he => ?_⟩
    · have happ : UgbsText low tf element (items.take m ++ [.other]) (lines.take n) := by
        rw [h5]
        have hl : ∀ w ws, Words l (w :: ws) → low w ≠ low element := by
          intro w ws h
          rw [words_iff, words_iff.1 h2] at h
          cases h
          exact he
        generalize items.take m = i1 at h4
        generalize lines.take (n - 1) = l1 at h4
        clear h5 h1
        induction h4 with
        | nil => exact .other hl .nil
        | entry a b c d _ ih => exact .entry a b c d ih
        | other a _ ih => exact .other a ih
      have hof : ∀ k, ugbsOf low element k (items.take m ++ [.other]) = ugbsOf low element k (items.take m) := by
        intro k
        induction items.take m with
        | nil => rfl
        | cons x xs ih => cases x <;> simp only [List.cons_append, ugbsOf, ih]
      obtain ⟨out, g1, g2, g3⟩ := C72_exponents low tf fs dir element _ _ hf happ (by
        intro el' sh' z' hm'
        rw [List.mem_append] at hm'
        rcases hm' with hm' | hm'
        · exact goodShells_take hs m el' sh' z' hm'
        · simp at hm')
      exact ⟨out, g1, fun k hk => by rw [g2 k hk, hof], g3⟩
    · exact C111_malformed low tf fs dir element _ _ [l] _ (by rw [hf, h5]) h4 (goodShells_take hs m)
        (.noLine h2 he (hs el sh z hm he))

/-- **C111** (unnoticed).  The file can be cut off after any number of entries so that the exponents of the
others are lost without any error. -/
theorem C111_unnoticed (low : Str → Str) (tf : Str → Py XR) (dir : Str)
    (element : Str) (items : List UgbsItem) (lines : List Str) (ht : UgbsText low tf element items lines)
    (hs : GoodShells low element items) (m : ℕ) :
    ∃ n, (m < items.length → n < lines.length) ∧ ∀ fs : Str → Option (List Str),
      fs (dir ++ "data/ygbs".toList) = some (lines.take n) →
      ReturnsItems low element (items.take m)
        (ugbsExponents low tf fs (dir ++ "parse_ugbs.py".toList) (.str element)) := by
  have key : ∃ n, (m < items.length → n < lines.length) ∧
      UgbsText low tf element (items.take m) (lines.take n) := by
    clear hs
    induction ht generalizing m with
    | nil => exact ⟨0, by simp, by simpa using .nil⟩
    | other h rest ih =>
      cases m with
      | zero => exact ⟨0, by simp, .nil⟩
      | succ m =>
        obtain ⟨n, h1, h2⟩ := ih m
        exact ⟨n + 1, by simpa using h1, .other h h2⟩
    | entry g1 g2 g3 g4 rest ih =>
      cases m with
      | zero => exact ⟨0, by simp, .nil⟩
      | succ m =>
        obtain ⟨n, h1, h2⟩ := ih m
        exact ⟨n + 2, by simpa using h1, .entry g1 g2 g3 g4 h2⟩
  obtain ⟨n, h1, h2⟩ := key
  exact ⟨n, h1, fun fs hf => C72_exponents low tf fs dir element _ _ hf h2 (goodShells_take hs m)⟩

/-- The file `He S / 7.5 / He P` lacks its last line. -/
example (tf : Str → Py XR) (x : XR) (h : tf "7.5".toList = .ok x) :
    ugbsExponents (fun s => s.map Char.toLower) tf
      (fun p => if p = "data/ygbs".toList then
        some ["He S\n".toList, " 7.5\n".toList, "He P".toList] else none)
      "parse_ugbs.py".toList (.str "he".toList) = .error .indexError := by
  have := C111_malformed (fun s => s.map Char.toLower) tf
    (fun p => if p = "data/ygbs".toList then
        some ["He S\n".toList, " 7.5\n".toList, "He P".toList] else none) [] "he".toList
    [.entry "He".toList "S".toList x] ["He S\n".toList, " 7.5\n".toList] ["He P".toList] .indexError
    rfl
    (.entry (r1 := []) (r2 := []) (w := "7.5".toList) (by decide) (by decide) h (.inl (by decide)) .nil)
    (by
      intro el sh z hm _
      simp only [List.mem_singleton, UgbsItem.entry.injEq] at hm
      rw [hm.2.1]
      decide)
    (.noLine (w := "He".toList) (k := "P".toList) (r := []) (by decide) (by decide) (by decide))
  exact this

end
end BFit
