import Verif.Spec.Parse

/-! Property C72: exponents from the UGBS file. -/

namespace BFit

open Classical

noncomputable section

/-- The four shells. -/
def shellNames : List Str := [['S'], ['P'], ['D'], ['F']]

theorem emptyDict_shell (k : Str) (hk : k ∈ shellNames) : (emptyDict k : Option (List XR)) = some [] := by
  unfold emptyDict
  rw [if_pos (by simpa [shellNames] using hk)]

theorem emptyDict_other (k : Str) (hk : k ∉ shellNames) : (emptyDict k : Option (List XR)) = none := by
  unfold emptyDict
  rw [if_neg (by simpa [shellNames] using hk)]

/-- A line that does not start with the element is skipped. -/
theorem ugbs_skip (low : Str → Str) (tf : Str → Py XR) (element l : Str) (lines : List Str)
    (out : Str → Option (List XR)) (h : ∀ w ws, Words l (w :: ws) → low w ≠ low element) :
    ugbsLoop low tf element (l :: lines) out = ugbsLoop low tf element lines out := by
  cases lines with
  | nil =>
    unfold ugbsLoop
    cases hs : splitWs l with
    | nil => simp
    | cons w ws =>
      simp only
      rw [if_neg (h w ws (words_iff.2 hs))]
  | cons m lines =>
    rw [ugbsLoop]
    cases hs : splitWs l with
    | nil => rfl
    | cons w ws =>
      simp only
      rw [if_neg (h w ws (words_iff.2 hs))]

theorem ugbs_loop_append {low : Str → Str} {tf : Str → Py XR} {element : Str} {items : List UgbsItem}
    {lines : List Str} (ht : UgbsText low tf element items lines)
    (hs : ∀ el sh z, UgbsItem.entry el sh z ∈ items → low el = low element → sh ∈ shellNames)
    (more : List Str) (out : Str → Option (List XR)) (hout : ∀ k ∈ shellNames, ∃ l, out k = some l) :
    ∃ out', ugbsLoop low tf element (lines ++ more) out = ugbsLoop low tf element more out' ∧
      ∀ k, out' k = (out k).map (· ++ ugbsOf low element k items) := by
  induction ht generalizing out with
  | nil => exact ⟨out, rfl, fun k => by simp [ugbsOf]⟩
  | other h rest ih =>
    obtain ⟨out', h1, h2⟩ := ih (fun el sh z hm => hs el sh z (by simp [hm])) out hout
    refine ⟨out', ?_, fun k => by simp [ugbsOf, h2]⟩
    rw [List.cons_append, ugbs_skip low tf element _ _ out h, h1]
  | @entry el shell w z l1 l2 r1 r2 items lines h1 h2 hz hw rest ih =>
    have hs' : ∀ el sh z, UgbsItem.entry el sh z ∈ items → low el = low element → sh ∈ shellNames :=
      fun el sh z hm => hs el sh z (by simp [hm])
    by_cases he : low el = low element
    · obtain ⟨l, hl⟩ := hout shell (hs el shell z (by simp) he)
      obtain ⟨out', g1, g2⟩ := ih hs' (dictSet out shell (l ++ [z])) (fun k hk => by
        unfold dictSet
        split
        · exact ⟨_, rfl⟩
        · exact hout k hk)
      refine ⟨out', ?_, fun k => ?_⟩
      · rw [List.cons_append, List.cons_append, ugbsLoop, words_iff.1 h1]
        simp only
        rw [if_pos he]
        simp only [hl, words_iff.1 h2, hz]
        exact g1
      · rw [g2]
        unfold dictSet
        rw [ugbsOf]
        by_cases hk : k = shell
        · rw [if_pos hk, hk, hl]
          simp [he]
        · rw [if_neg hk, if_neg (by rintro ⟨-, rfl⟩; exact hk rfl)]
    · obtain ⟨out', g1, g2⟩ := ih hs' out hout
      refine ⟨out', ?_, fun k => ?_⟩
      · rw [List.cons_append, List.cons_append, ugbs_skip low tf element l1 _ out (fun w' ws' e => ?_),
          ugbs_skip low tf element l2 _ out (fun w' ws' e => ?_)]
        · exact g1
        · rw [words_iff, words_iff.1 h2] at e
          rw [← (List.cons.inj e).1]
          exact hw.resolve_left he
        · rw [words_iff, words_iff.1 h1] at e
          rw [← (List.cons.inj e).1]
          exact he
      · rw [g2]
        simp [ugbsOf, he]

theorem ugbs_loop {low : Str → Str} {tf : Str → Py XR} {element : Str} {items : List UgbsItem}
    {lines : List Str} (ht : UgbsText low tf element items lines)
    (hs : ∀ el sh z, UgbsItem.entry el sh z ∈ items → low el = low element → sh ∈ shellNames)
    (out : Str → Option (List XR)) (hout : ∀ k ∈ shellNames, ∃ l, out k = some l) :
    ∃ out', ugbsLoop low tf element lines out = .ok out' ∧
      ∀ k, out' k = (out k).map (· ++ ugbsOf low element k items) := by
  obtain ⟨out', h1, h2⟩ := ugbs_loop_append ht hs [] out hout
  rw [List.append_nil] at h1
  exact ⟨out', h1.trans (by simp [ugbsLoop]), h2⟩

theorem ugbsPath_dir (dir : Str) :
    ugbsPath (dir ++ "parse_ugbs.py".toList) = dir ++ "data/ygbs".toList := by
  unfold ugbsPath
  rw [show (dir ++ "parse_ugbs.py".toList).length - 13 = dir.length by
    rw [List.length_append, show ("parse_ugbs.py".toList).length = 13 from rfl]; omega]
  rw [List.take_left]

/-- `get_ugbs_exponents` returns, for each of the four shells, the exponents that the file lists for the
element, in the order of the file, and has no other keys.  The file is `data/ygbs` beside the module. -/
theorem C72_exponents (low : Str → Str) (tf : Str → Py XR) (fs : Str → Option (List Str)) (dir : Str)
    (element : Str) (items : List UgbsItem) (lines : List Str)
    (hf : fs (dir ++ "data/ygbs".toList) = some lines) (ht : UgbsText low tf element items lines)
    (hs : ∀ el sh z, UgbsItem.entry el sh z ∈ items → low el = low element →
      sh ∈ ["S".toList, "P".toList, "D".toList, "F".toList]) :
    ∃ out, ugbsExponents low tf fs (dir ++ "parse_ugbs.py".toList) (.str element) = .ok out ∧
      (∀ k ∈ ["S".toList, "P".toList, "D".toList, "F".toList],
        out k = some (ugbsOf low element k items)) ∧
      ∀ k ∉ ["S".toList, "P".toList, "D".toList, "F".toList], out k = none := by
  have hp := ugbsPath_dir dir
  obtain ⟨out, h1, h2⟩ := ugbs_loop ht hs emptyDict (fun k hk => ⟨[], emptyDict_shell k hk⟩)
  refine ⟨out, ?_, fun k hk => ?_, fun k hk => ?_⟩
  · unfold ugbsExponents
    rw [hp, hf]
    exact h1
  · rw [h2, emptyDict_shell k hk]
    simp
  · rw [h2, emptyDict_other k hk]
    rfl

/-- Names that differ in case give the same result; a missing file and an argument that is not a string
are errors. -/
theorem C72_case (low : Str → Str) (tf : Str → Py XR) (fs : Str → Option (List Str)) (path : Str)
    (e e' : Str) (h : low e = low e') :
    ugbsExponents low tf fs path (.str e) = ugbsExponents low tf fs path (.str e') ∧
    ugbsExponents low tf fs path .other = raise .assertionError := by
  refine ⟨?_, rfl⟩
  have key : ∀ n (lines : List Str) out, lines.length ≤ n →
      ugbsLoop low tf e lines out = ugbsLoop low tf e' lines out := by
    intro n
    induction n with
    | zero =>
      intro lines out hl
      rw [List.length_eq_zero_iff.mp (Nat.le_zero.mp hl)]
      simp [ugbsLoop]
    | succ n ih =>
      intro lines out hl
      match lines with
      | [] => simp [ugbsLoop]
      | [l] => simp only [ugbsLoop, h]
      | l :: m :: rest =>
        have i1 := fun o => ih (m :: rest) o (by simp only [List.length_cons] at hl ⊢; omega)
        have i2 := fun o => ih rest o (by simp only [List.length_cons] at hl ⊢; omega)
        rw [ugbsLoop, ugbsLoop, h]
        simp only [i1, i2]
  unfold ugbsExponents
  cases fs (ugbsPath path) with
  | none => rfl
  | some lines => exact key _ lines _ le_rfl

/-- A file with exponents of hydrogen and helium, a comment and blank lines. -/
example : ∃ tf : Str → Py XR, ∃ items,
    UgbsText (fun s => s.map Char.toLower) tf "he".toList items
      ["#BASIS\n".toList, "\n".toList, "H    S\n".toList, "  13.5   1.0\n".toList, "He   S\n".toList,
        "  7.5   1.0\n".toList, "HE   P\n".toList, "  2.5   1.0\n".toList, "END".toList] ∧
    ugbsOf (fun s => s.map Char.toLower) "he".toList "S".toList items = [XR.fin 7.5] ∧
    ugbsOf (fun s => s.map Char.toLower) "he".toList "P".toList items = [XR.fin 2.5] := by
  refine ⟨fun w => if w = "13.5".toList then .ok (XR.fin 13.5) else if w = "7.5".toList then
      .ok (XR.fin 7.5) else .ok (XR.fin 2.5),
    [.other, .other, .entry "H".toList "S".toList (XR.fin 13.5), .entry "He".toList "S".toList (XR.fin 7.5),
      .entry "HE".toList "P".toList (XR.fin 2.5), .other], ?_, ?_, ?_⟩
  · have o : ∀ l : Str, ((splitWs l).map (fun s => s.map Char.toLower)).head? ≠ some "he".toList →
        ∀ w ws, Words l (w :: ws) → w.map Char.toLower ≠ "he".toList.map Char.toLower := by
      intro l h w ws e h'
      apply h
      rw [words_iff.1 e]
      simp only [List.map_cons, List.head?_cons, h']
      decide
    refine .other (o _ (by decide)) (.other (o _ (by decide))
      (.entry (r1 := []) (r2 := ["1.0".toList]) (w := "13.5".toList) (by decide) (by decide) ?_ (.inr (by decide))
      (.entry (r1 := []) (r2 := ["1.0".toList]) (w := "7.5".toList) (by decide) (by decide) ?_ (.inr (by decide))
      (.entry (r1 := []) (r2 := ["1.0".toList]) (w := "2.5".toList) (by decide) (by decide) ?_ (.inr (by decide))
      (.other (o _ (by decide)) .nil)))))
    · rw [if_pos rfl]
    · rw [if_neg (by decide), if_pos rfl]
    · rw [if_neg (by decide), if_neg (by decide)]
  · simp only [ugbsOf]
    rw [if_neg (by decide), if_pos (by decide), if_neg (by decide)]
  · simp only [ugbsOf]
    rw [if_neg (by decide), if_neg (by decide), if_pos (by decide)]

end
end BFit
