import Verif.Props.SlaterLoad

/-! Property C110: truncated and malformed Slater files. -/

namespace BFit

open Classical

noncomputable section

/-- The parts of a Slater file, as in `FileText`: the line with the configuration, blank lines, six further
lines in the files of heavy elements, the line with the energy, the line with the kinetic energy, blank lines,
titles, tables. -/
structure FileParts (heavy : Bool) (tf : Str → Py XR) (f : SFile) (l0 : Str) (bl ex : List Str) (el kl : Str)
    (bl' ti tabs : List Str) : Prop where
  config : ∃ name w ws, Words l0 (name :: w :: ws) ∧ w.filter (· ≠ ',') = f.core.text ++ cfgText f.items
  core : heavy = true ↔ f.core ≠ .all
  blank : ∀ l ∈ bl, Blank l
  extra : if heavy then ex.length = 6 ∧ ¬ Blank (ex.headD []) else ex = []
  energy : EnergyLine tf f.energy el
  kinetic : KineticLine tf f.kinetic f.potential kl
  blank' : ∀ l ∈ bl', Blank l
  titles : ∀ l ∈ ti, ¬ Blank l ∧ ¬ HasPattern l
  tables : TablesText heavy tf f.blocks tabs

theorem fileText_iff (heavy : Bool) (tf : Str → Py XR) (f : SFile) (lines : List Str) :
    FileText heavy tf f lines ↔ ∃ l0 bl ex el kl bl' ti tabs, FileParts heavy tf f l0 bl ex el kl bl' ti tabs ∧
      lines = l0 :: (bl ++ (ex ++ (el :: kl :: (bl' ++ (ti ++ tabs))))) := by
  constructor
  · rintro ⟨l0, name, w, ws, bl, ex, el, kl, bl', ti, tabs, rfl, h1, h2, h3, h4, h5, h6, h7, h8, h9, h10⟩
    exact ⟨l0, bl, ex, el, kl, bl', ti, tabs, ⟨⟨name, w, ws, h1, h2⟩, h3, h4, h5, h6, h7, h8, h9, h10⟩, rfl⟩
  · rintro ⟨l0, bl, ex, el, kl, bl', ti, tabs, ⟨⟨name, w, ws, h1, h2⟩, h3, h4, h5, h6, h7, h8, h9, h10⟩, rfl⟩
    exact ⟨l0, name, w, ws, bl, ex, el, kl, bl', ti, tabs, rfl, h1, h2, h3, h4, h5, h6, h7, h8, h9, h10⟩

theorem skipBlank_none (bl : List Str) (h : ∀ l ∈ bl, Blank l) : skipBlank bl = none := by
  induction bl with
  | nil => rfl
  | cons b bl ih =>
    rw [skipBlank, if_pos (blank_iff.1 (h b (by simp)))]
    exact ih fun x hx => h x (by simp [hx])

theorem energyMatches_noDigits (line : Str) (h : NoDigits line) : energyMatches line.length line = [] := by
  have := energyMatches_skip line [] h (by simp) line.length le_rfl
  rw [List.append_nil] at this
  rw [this, Nat.sub_self]
  rfl

theorem kineticLine_noDigits (tf : Str → Py XR) (line : Str) (h : NoDigits line) :
    kineticLine tf line = .error .assertionError := by
  unfold kineticLine
  rw [energyMatches_noDigits line h]
  rfl

theorem parts_config {heavy : Bool} {tf : Str → Py XR} {f : SFile} (hf : f.wf) {l0 : Str} {bl ex : List Str}
    {el kl : Str} {bl' ti tabs : List Str} (h : FileParts heavy tf f l0 bl ex el kl bl' ti tabs) :
    readConfig heavy l0 = .ok (cfgText f.config) := by
  obtain ⟨name, w, ws, h1, h2⟩ := h.config
  refine readConfig_ok heavy f (fun it hi => hf.config.1 it ?_) l0 name w ws h1 h2 h.core
  unfold SFile.config
  exact List.mem_append.mpr (Or.inr hi)

/-- **C110 fails**: what happens to a file that is cut off before its tables.  Cut off among the blank
lines after the first line or after the line with the kinetic energy, reading never ends; cut off elsewhere it
raises an exception. -/
theorem C110_hangs (heavy : Bool) (tf : Str → Py XR) (f : SFile) (hf : f.wf) (l0 : Str) (bl ex : List Str)
    (el kl : Str) (bl' ti tabs : List Str) (h : FileParts heavy tf f l0 bl ex el kl bl' ti tabs) :
    (∀ k, parseSlater heavy tf (l0 :: bl.take k) = none) ∧
    (∀ k, parseSlater heavy tf (l0 :: (bl ++ (ex ++ el :: kl :: bl'.take k))) = none) := by
  have hc := parts_config hf h
  constructor
  · intro k
    unfold parseSlater
    rw [List.headD_cons, hc, List.tail_cons]
    simp only
    rw [skipBlank_none _ fun l hl => h.blank l (List.mem_of_mem_take hl)]
  · intro k
    have hk : skipBlank (bl'.take k) = none := skipBlank_none _ fun l hl => h.blank' l (List.mem_of_mem_take hl)
    have h5 := h.extra
    unfold parseSlater
    rw [List.headD_cons, hc, List.tail_cons]
    simp only
    cases heavy with
    | false =>
      simp only [Bool.false_eq_true, if_false] at h5 ⊢
      rw [h5, List.nil_append, skipBlank_ok bl h.blank el (energyLine_nonblank tf _ el h.energy)]
      simp only [energyLine_ok tf _ el h.energy, List.headD_cons, kineticLine_ok tf _ _ kl h.kinetic,
        List.tail_cons]
      unfold parseTables
      rw [hk]
    | true =>
      simp only [if_true] at h5 ⊢
      obtain ⟨h5, h5'⟩ := h5
      match ex, h5, h5' with
      | [a, b, c, d, e, g], _, h5' =>
        rw [List.cons_append, skipBlank_ok bl h.blank a h5']
        simp only [List.cons_append, List.nil_append, List.drop_succ_cons, List.drop_zero, List.headD_cons,
          energyLine_ok tf _ el h.energy, kineticLine_ok tf _ _ kl h.kinetic, List.tail_cons]
        unfold parseTables
        rw [hk]

/-- **C110** (partial).  A file cut off before its tables raises an exception: IndexError if it is empty,
RuntimeError if the line with the energy is missing, AssertionError if the line with the kinetic energy is
missing.  Missing: the other cuts before the tables (`C110_hangs`) and all cuts in the tables
(`C110_silent`). -/
theorem C110_detected_partial (heavy : Bool) (tf : Str → Py XR) (f : SFile) (hf : f.wf) (l0 : Str)
    (bl ex : List Str) (el kl : Str) (bl' ti tabs : List Str)
    (h : FileParts heavy tf f l0 bl ex el kl bl' ti tabs) :
    parseSlater heavy tf [] = some (.error .indexError) ∧
    (∀ k, 1 ≤ k → heavy = true → parseSlater heavy tf (l0 :: (bl ++ ex.take k)) = some (.error .runtimeError)) ∧
    parseSlater heavy tf (l0 :: (bl ++ (ex ++ [el]))) = some (.error .assertionError) := by
  have hc := parts_config hf h
  refine ⟨rfl, ?_, ?_⟩
  · rintro k hk rfl
    have h5 := h.extra
    simp only [if_true] at h5
    obtain ⟨h5, h5'⟩ := h5
    unfold parseSlater
    rw [List.headD_cons, hc, List.tail_cons]
    simp only
    match ex, h5, h5' with
    | a :: ex, h5, h5' =>
      obtain ⟨k, rfl⟩ : ∃ m, k = m + 1 := ⟨k - 1, by omega⟩
      rw [List.take_succ_cons, skipBlank_ok bl h.blank a h5']
      simp only [if_true]
      have : (ex.take k).drop 5 = [] := by
        rw [List.drop_eq_nil_iff, List.length_take]
        simp only [List.length_cons] at h5
        omega
      rw [this]
      rfl
  · have h5 := h.extra
    unfold parseSlater
    rw [List.headD_cons, hc, List.tail_cons]
    simp only
    cases heavy with
    | false =>
      simp only [Bool.false_eq_true, if_false] at h5 ⊢
      rw [h5, List.nil_append, skipBlank_ok bl h.blank el (energyLine_nonblank tf _ el h.energy)]
      simp only [energyLine_ok tf _ el h.energy]
      rfl
    | true =>
      simp only [if_true] at h5 ⊢
      obtain ⟨h5, h5'⟩ := h5
      match ex, h5, h5' with
      | [a, b, c, d, e, g], _, h5' =>
        rw [List.cons_append, skipBlank_ok bl h.blank a h5']
        simp only [List.cons_append, List.nil_append, List.drop_succ_cons, List.drop_zero, List.headD_cons,
          energyLine_ok tf _ el h.energy]
        rfl

/-- The contents of a file of which only the first tables are left, of the last of them only the first
rows. -/
def SFile.cut (f : SFile) (bs : List TBlock) (b : TBlock) (r : ℕ) : SFile :=
  { f with blocks := bs ++ [{ b with rows := b.rows.take r }] }

theorem blockText_take {heavy : Bool} {tf : Str → Py XR} {b : TBlock} {ls : List Str}
    (h : BlockText heavy tf b ls) (r : ℕ) :
    ∃ n ≤ ls.length, BlockText heavy tf { b with rows := b.rows.take r } (ls.take n) ∧
      (r < b.rows.length → n < ls.length) := by
  obtain ⟨hl, e, cl, rl, rfl, h1, h2, h3, h4⟩ := h
  have hlen := h4.length_eq
  refine ⟨2 + cl.length + min r rl.length, by simp; omega, ⟨hl, e, cl, rl.take r, ?_, h1, h2, h3, ?_⟩, ?_⟩
  · rw [show 2 + cl.length + min r rl.length = (cl.length + min r rl.length) + 1 + 1 by omega,
      List.take_succ_cons, List.take_succ_cons, List.take_append, List.take_of_length_le (by omega),
      Nat.add_sub_cancel_left, ← List.take_take, List.take_length]
  · exact List.forall₂_take r h4
  · intro hr
    simp
    omega

theorem tablesText_cut {heavy : Bool} {tf : Str → Py XR} (bs : List TBlock) (b : TBlock) (bs' : List TBlock)
    (r : ℕ) (lines : List Str) (h : TablesText heavy tf (bs ++ b :: bs') lines) :
    ∃ n ≤ lines.length, TablesText heavy tf (bs ++ [{ b with rows := b.rows.take r }]) (lines.take n) ∧
      (r < b.rows.length → n < lines.length) := by
  induction bs generalizing lines with
  | nil =>
    rw [List.nil_append] at h
    cases h with
    | @cons _ _ ls rest hb hbt hr =>
      obtain ⟨n, h1, h2, h3⟩ := blockText_take hbt r
      refine ⟨n, by simp; omega, ?_, fun hr => by have := h3 hr; simp; omega⟩
      have : (ls ++ rest).take n = ls.take n ++ [] := by
        rw [List.take_append_of_le_length h1, List.append_nil]
      rw [this, List.nil_append]
      exact .cons ⟨hb.1, fun x hx => hb.2 x (List.mem_of_mem_take hx)⟩ h2 .eof
  | cons a bs ih =>
    rw [List.cons_append] at h
    cases h with
    | @cons _ _ ls rest hb hbt hr =>
      obtain ⟨n, h1, h2, h3⟩ := ih rest hr
      refine ⟨ls.length + n, by simp; omega, ?_, fun hr => by have := h3 hr; simpa using this⟩
      rw [List.take_length_add_append, List.cons_append]
      exact .cons hb hbt h2

/-- **C110 fails**: a file cut off in its tables is read without an exception, and the dictionary holds
what is left: the tables before the cut, and of the last one the rows before the cut. -/
theorem C110_silent (heavy : Bool) (tf : Str → Py XR) (f : SFile) (hf : f.wf) (lines : List Str)
    (h : FileText heavy tf f lines) (bs : List TBlock) (b : TBlock) (bs' : List TBlock)
    (hb : f.blocks = bs ++ b :: bs') (r : ℕ) (hr : 1 ≤ r) :
    ∃ n ≤ lines.length, (r < b.rows.length → n < lines.length) ∧
      ∃ A, parseSlater heavy tf (lines.take n) = some (.ok A) ∧ Reads heavy (f.cut bs b r) A := by
  obtain ⟨l0, bl, ex, el, kl, bl', ti, tabs, hp, rfl⟩ := (fileText_iff _ _ _ _).1 h
  have ht := hp.tables
  rw [hb] at ht
  obtain ⟨n, h1, h2, h3⟩ := tablesText_cut bs b bs' r tabs ht
  refine ⟨1 + bl.length + ex.length + 2 + bl'.length + ti.length + n, by simp; omega,
    fun hr => by have := h3 hr; simp; omega, ?_⟩
  have hwf : (f.cut bs b r).wf := by
    refine ⟨hf.config, by simp [SFile.cut], ?_, ?_, ?_⟩
    · have := hf.subs
      rw [hb] at this
      simp only [SFile.cut, List.map_append, List.map_cons, List.map_nil] at this ⊢
      refine this.sublist (List.Sublist.append (List.Sublist.refl _) ?_)
      simp
    · intro x hx
      simp only [SFile.cut, List.mem_append, List.mem_singleton] at hx
      rcases hx with hx | rfl
      · exact hf.rows x (by rw [hb]; simp [hx])
      · have := hf.rows b (by rw [hb]; simp)
        simp only [ne_eq, List.take_eq_nil_iff, not_or]
        exact ⟨by omega, this⟩
    · intro o ho
      refine hf.occ o ?_
      unfold SFile.orbs at ho ⊢
      simp only [SFile.cut, List.flatMap_append, List.flatMap_cons, List.flatMap_nil, List.append_nil,
        List.mem_append] at ho
      rw [hb]
      simp only [List.flatMap_append, List.flatMap_cons, List.mem_append]
      rcases ho with ho | ho
      · exact .inl ho
      · exact .inr (.inl ho)
  refine C71_file heavy tf (f.cut bs b r) hwf _ ((fileText_iff _ _ _ _).2 ⟨l0, bl, ex, el, kl, bl', ti,
    tabs.take n, ⟨hp.config, hp.core, hp.blank, hp.extra, hp.energy, hp.kinetic, hp.blank', hp.titles, h2⟩, ?_⟩)
  rw [show 1 + bl.length + ex.length + 2 + bl'.length + ti.length + n =
    (bl.length + (ex.length + ((bl'.length + (ti.length + n)) + 1 + 1))) + 1 by omega, List.take_succ_cons]
  simp only [List.take_length_add_append, List.take_succ_cons]

theorem strip_eq_E (a : Str) (h : strip a = ['E']) :
    ∃ s t, a = s ++ 'E' :: t ∧ ∀ c ∈ s ++ t, isSpace c = true := by
  unfold strip lstrip at h
  have h1 := congrArg List.reverse h
  rw [List.reverse_reverse] at h1
  refine ⟨a.takeWhile isSpace, ((a.dropWhile isSpace).reverse.takeWhile isSpace).reverse, ?_, ?_⟩
  · have e2 := List.takeWhile_append_dropWhile (p := isSpace) (l := (a.dropWhile isSpace).reverse)
    rw [h1] at e2
    have e3 := congrArg List.reverse e2
    rw [List.reverse_reverse, List.reverse_append] at e3
    have e1 := List.takeWhile_append_dropWhile (p := isSpace) (l := a)
    conv_lhs => rw [← e1, ← e3]
    simp
  · intro c hc
    rw [List.mem_append, List.mem_reverse] at hc
    rcases hc with hc | hc
    · exact List.all_eq_true.1 List.all_takeWhile c hc
    · exact List.all_eq_true.1 List.all_takeWhile c hc

theorem noEq_E (s t : Str) (h : ∀ c ∈ s ++ t, isSpace c = true) : '=' ∉ s ++ 'E' :: t := by
  intro hm
  rw [List.mem_append, List.mem_cons] at hm
  rcases hm with hm | hm | hm
  · exact absurd (h '=' (by simp [hm])) (by decide)
  · exact absurd hm (by decide)
  · exact absurd (h '=' (by simp [hm])) (by decide)

/-- **C110** (format).  The line with the energy and the next one of a light element: text other than
`E` before the first sign `=` raises RuntimeError, a missing sign IndexError, text that is no number the
exception of `float`, and a next line without digits AssertionError. -/
theorem C110_format (tf : Str → Py XR) (l0 name w : Str) (ws : List Str)
    (h0 : Words l0 (name :: w :: ws)) (bl : List Str) (hbl : ∀ l ∈ bl, Blank l) (el : Str)
    (hel : ¬ Blank el) (rest : List Str) :
    (∀ a b, el = a ++ '=' :: b → '=' ∉ a → (∀ s t, a = s ++ 'E' :: t → ¬ Blank (s ++ t)) →
      parseSlater false tf (l0 :: (bl ++ el :: rest)) = some (.error .runtimeError)) ∧
    (∀ s t, el = s ++ 'E' :: t → Blank (s ++ t) →
      parseSlater false tf (l0 :: (bl ++ el :: rest)) = some (.error .indexError)) ∧
    (∀ s t b e, el = s ++ 'E' :: t ++ '=' :: b → Blank (s ++ t) → '=' ∉ b → tf b = .error e →
      parseSlater false tf (l0 :: (bl ++ el :: rest)) = some (.error e)) ∧
    (∀ v kl rest', EnergyLine tf v el → rest = kl :: rest' → NoDigits kl →
      parseSlater false tf (l0 :: (bl ++ el :: rest)) = some (.error .assertionError)) := by
  have hc : readConfig false l0 = .ok (w.filter (· ≠ ',')) := by
    unfold readConfig
    rw [words_iff.1 h0]
    rfl
  have key1 : ∀ e, energyLine tf el = .error e →
      parseSlater false tf (l0 :: (bl ++ el :: rest)) = some (.error e) := by
    intro e he
    unfold parseSlater
    rw [List.headD_cons, hc, List.tail_cons]
    simp only [skipBlank_ok bl hbl el hel, Bool.false_eq_true, if_false, he]
  refine ⟨?_, ?_, ?_, ?_⟩
  · rintro a b rfl ha hE
    refine key1 _ ?_
    unfold energyLine
    rw [(takeWhile_stop a '=' b ha).1, if_pos]
    · rfl
    · intro hs
      obtain ⟨s, t, h1, h2⟩ := strip_eq_E a hs
      exact hE s t h1 (blank_of h2)
  · rintro s t rfl hs
    replace hs := hs.space
    refine key1 _ ?_
    have hn := noEq_E s t hs
    unfold energyLine
    rw [takeWhile_none _ '=' hn, strip_E s t (fun c hc => hs c (by simp [hc])) (fun c hc => hs c (by simp [hc])),
      if_neg (by simp)]
    have : (s ++ 'E' :: t).dropWhile (· ≠ '=') = [] := by
      have := dropWhile_all (p := fun x => decide (x ≠ '=')) (s ++ 'E' :: t) [] (by
        intro x hx
        simp only [decide_eq_true_eq]
        rintro rfl
        exact hn hx)
      rwa [List.append_nil] at this
    rw [this]
    rfl
  · rintro s t b e rfl hs hb he
    replace hs := hs.space
    refine key1 _ ?_
    obtain ⟨h1, h2⟩ := takeWhile_stop (s ++ 'E' :: t) '=' b (noEq_E s t hs)
    unfold energyLine
    rw [h1, h2, strip_E s t (fun c hc => hs c (by simp [hc])) (fun c hc => hs c (by simp [hc])),
      if_neg (by simp)]
    simp only
    rw [takeWhile_none b '=' hb, he]
  · rintro v kl rest' hv rfl hk
    unfold parseSlater
    rw [List.headD_cons, hc, List.tail_cons]
    simp only [skipBlank_ok bl hbl el hel, Bool.false_eq_true, if_false, energyLine_ok tf v el hv,
      List.headD_cons, kineticLine_noDigits tf kl hk]

/-- Reading a file with the given first parts reaches its tables. -/
theorem parse_reaches_tables {heavy : Bool} {tf : Str → Py XR} {f : SFile} (hf : f.wf) {l0 : Str}
    {bl ex : List Str} {el kl : Str} {bl' ti tabs : List Str}
    (h : FileParts heavy tf f l0 bl ex el kl bl' ti tabs) (hl : Str) (more : List Str) (hh : ¬ Blank hl)
    (e : PyErr) (he : tableLoop heavy tf (hl :: more) .scan Tbl.empty = .error e) :
    parseSlater heavy tf (l0 :: (bl ++ (ex ++ el :: kl :: (bl' ++ (ti ++ hl :: more))))) = some (.error e) := by
  have hc := parts_config hf h
  have htab : ∀ cfg en tv, parseTables heavy tf cfg en tv (bl' ++ (ti ++ hl :: more)) = some (.error e) := by
    intro cfg en tv
    obtain ⟨l, rest, e1, e2⟩ : ∃ l rest, ti ++ hl :: more = l :: rest ∧ ¬ Blank l := by
      cases hti : ti with
      | nil => exact ⟨hl, more, rfl, hh⟩
      | cons l t => exact ⟨l, t ++ hl :: more, rfl, (h.titles l (by rw [hti]; simp)).1⟩
    unfold parseTables
    rw [e1, skipBlank_ok bl' h.blank' l e2]
    simp only
    rw [← e1, titles_ok heavy tf ti h.titles, he]
  have h5 := h.extra
  unfold parseSlater
  rw [List.headD_cons, hc, List.tail_cons]
  simp only
  cases heavy with
  | false =>
    simp only [Bool.false_eq_true, if_false] at h5 ⊢
    rw [h5, List.nil_append, skipBlank_ok bl h.blank el (energyLine_nonblank tf _ el h.energy)]
    simp only [energyLine_ok tf _ el h.energy, List.headD_cons, kineticLine_ok tf _ _ kl h.kinetic,
      List.tail_cons, htab]
  | true =>
    simp only [if_true] at h5 ⊢
    obtain ⟨h5, h5'⟩ := h5
    match ex, h5, h5' with
    | [a, b, c, d, e, g], _, h5' =>
      rw [List.cons_append, skipBlank_ok bl h.blank a h5']
      simp only [List.cons_append, List.nil_append, List.drop_succ_cons, List.drop_zero, List.headD_cons,
        energyLine_ok tf _ el h.energy, kineticLine_ok tf _ _ kl h.kinetic, List.tail_cons, htab]

theorem floats_error {tf : Str → Py XR} (a : List Str) (b : Str) (c : List Str) (e : PyErr)
    (ha : ∀ x ∈ a, ∃ v, tf x = .ok v) (hb : tf b = .error e) : floats tf (a ++ b :: c) = .error e := by
  unfold floats
  induction a with
  | nil => simp [mapPy, hb]
  | cons x a ih =>
    obtain ⟨v, hv⟩ := ha x (by simp)
    have := ih fun y hy => ha y (by simp [hy])
    simp [mapPy, hv, this]

/-- **C110** (tables).  Faults in the first table of a file raise: a value of the line with the orbital
energies that is no number the exception of `float`; in the first row, a row label for a subshell other than S,
P, D and F KeyError, a missing exponent IndexError, an exponent that is no number the exception of `float`, and
a row with fewer coefficients than the first orbital needs IndexError. -/
theorem C110_tables (heavy : Bool) (tf : Str → Py XR) (f : SFile) (hf : f.wf) (l0 : Str) (bl ex : List Str)
    (el kl : Str) (bl' ti tabs : List Str) (h : FileParts heavy tf f l0 bl ex el kl bl' ti tabs)
    (hl : Str) (sub : Str) (orbs : List Str) (hw : Words hl (sub :: orbs)) (hp : HasPattern hl)
    (hsub : ∀ c ∈ sub, c.isAlphanum = true) (en w : Str) (ws : List Str) (hen : Words en (w :: ws))
    (cl : List Str) (hcl : if heavy then cl = [] else ∃ c vs, cl = [c] ∧ ValuesLine tf vs c)
    (row : Str) (rest : List Str) :
    (∀ a b c e, ws = a ++ b :: c → (∀ x ∈ a, ∃ v, tf x = .ok v) → tf b = .error e →
      parseSlater heavy tf (l0 :: (bl ++ (ex ++ el :: kl :: (bl' ++ (ti ++ hl :: en :: rest))))) =
        some (.error e)) ∧
    (∀ vs d x ws', FloatWords tf ws vs → Words row ((d :: (sub ++ x)) :: ws') → d.isDigit = true →
      (sub ∉ ["S".toList, "P".toList, "D".toList, "F".toList] →
        parseSlater heavy tf (l0 :: (bl ++ (ex ++ el :: kl :: (bl' ++ (ti ++ hl :: en :: (cl ++ row :: rest)))))) =
          some (.error .keyError)) ∧
      (sub ∈ ["S".toList, "P".toList, "D".toList, "F".toList] → ws' = [] →
        parseSlater heavy tf (l0 :: (bl ++ (ex ++ el :: kl :: (bl' ++ (ti ++ hl :: en :: (cl ++ row :: rest)))))) =
          some (.error .indexError)) ∧
      (∀ z zs e, sub ∈ ["S".toList, "P".toList, "D".toList, "F".toList] → ws' = z :: zs → tf z = .error e →
        parseSlater heavy tf (l0 :: (bl ++ (ex ++ el :: kl :: (bl' ++ (ti ++ hl :: en :: (cl ++ row :: rest)))))) =
          some (.error e)) ∧
      (∀ z zs v s i orbs', sub ∈ ["S".toList, "P".toList, "D".toList, "F".toList] → ws' = z :: zs →
        tf z = .ok v → orbs = Orb.label ⟨s.l + 1 + i, s⟩ :: orbs' → s.l + 1 + i ≤ 9 → zs.length ≤ i →
        parseSlater heavy tf (l0 :: (bl ++ (ex ++ el :: kl :: (bl' ++ (ti ++ hl :: en :: (cl ++ row :: rest)))))) =
          some (.error .indexError))) := by
  have hh : ¬ Blank hl := by rw [blank_iff, words_iff.1 hw]; simp
  have hdr : ∀ more, tableLoop heavy tf (hl :: more) .scan Tbl.empty =
      tableLoop heavy tf more (.energy sub orbs) (Tbl.empty.header orbs) := by
    intro more
    rw [tableLoop, if_neg (mt blank_iff.2 hh), if_pos ((isHeader_iff hl).2 hp), words_iff.1 hw]
    rfl
  refine ⟨?_, ?_⟩
  · rintro a b c e rfl ha hb
    refine parse_reaches_tables hf h hl _ hh e ?_
    rw [hdr, tableLoop, words_iff.1 hen, List.tail_cons, floats_error a b c e ha hb]
  · intro vs d x ws' hvs hrow hd
    have hlstrip := splitWs_lstrip _ _ _ (words_iff.1 hrow)
    have hisrow : isRow sub row = true := by
      obtain ⟨u, hu⟩ := hlstrip
      unfold isRow
      rw [hu]
      simp [hd]
    have hrows : ∀ e, (∀ t : Tbl, t.exps = emptyDict → t.basis = emptyDict →
          t.coeff = (Tbl.empty.header orbs).coeff → addRow tf sub orbs row t = .error e) →
        parseSlater heavy tf (l0 :: (bl ++ (ex ++ el :: kl :: (bl' ++ (ti ++ hl :: en :: (cl ++ row :: rest)))))) =
          some (.error e) := by
      intro e hadd
      refine parse_reaches_tables hf h hl _ hh e ?_
      rw [hdr, tableLoop, words_iff.1 hen, List.tail_cons, floats_of hvs]
      simp only
      cases heavy with
      | true =>
        simp only [if_true] at hcl ⊢
        rw [hcl, List.nil_append, tableLoop, if_pos hisrow, hadd _ ?_ ?_ ?_] <;> rfl
      | false =>
        simp only [Bool.false_eq_true, if_false] at hcl ⊢
        obtain ⟨c, vs', rfl, w', ws'', g1, g2⟩ := hcl
        rw [List.singleton_append, tableLoop, words_iff.1 g1, List.tail_cons, floats_of g2]
        simp only
        rw [tableLoop, if_pos hisrow, hadd _ ?_ ?_ ?_] <;> rfl
    have hshell : sub ∈ ["S".toList, "P".toList, "D".toList, "F".toList] →
        ∀ α : Type, (emptyDict sub : Option (List α)) = some [] := by
      intro hs α
      unfold emptyDict
      rw [if_pos (by simpa using hs)]
    refine ⟨fun hs => hrows _ fun t h1 h2 h3 => ?_, fun hs hws => hrows _ fun t h1 h2 h3 => ?_,
      fun z zs e hs hws hz => hrows _ fun t h1 h2 h3 => ?_,
      fun z zs v s i orbs' hs hws hz ho hi hlen => hrows _ fun t h1 h2 h3 => ?_⟩
    · unfold addRow
      rw [h1]
      have : (emptyDict sub : Option (List XR)) = none := by
        unfold emptyDict
        rw [if_neg (by simpa using hs)]
      simp only [this]
      rfl
    · unfold addRow
      rw [h1, words_iff.1 hrow, hws]
      simp only [hshell hs]
      rfl
    · unfold addRow
      rw [h1, words_iff.1 hrow, hws]
      simp only [hshell hs]
      rw [show pyGet ((d :: (sub ++ x)) :: z :: zs) 1 = .ok z from rfl]
      simp only [hz]
    · unfold addRow
      rw [h1, h2, words_iff.1 hrow, hws]
      simp only [hshell hs]
      rw [show pyGet ((d :: (sub ++ x)) :: z :: zs) 1 = .ok z from rfl]
      simp only [hz]
      rw [show pyGet ((d :: (sub ++ x)) :: z :: zs) 0 = .ok (d :: (sub ++ x)) from rfl]
      simp only
      have hcoef : t.coeff (Orb.label ⟨s.l + 1 + i, s⟩) = some [] := by
        rw [h3]
        change (orbs.foldl (fun d x => dictSet d x []) fun _ => none) _ = _
        rw [header_coeff, if_pos (by rw [ho]; simp)]
      rw [ho, rowCoeff, hcoef]
      simp only [getColumn_label s i hi]
      have : pyGet ((d :: (sub ++ x)) :: z :: zs) ((i + 2 : ℕ) : ℤ) = .error .indexError := by
        unfold pyGet
        have : ((d :: (sub ++ x)) :: z :: zs)[i + 2]? = none := by
          rw [List.getElem?_eq_none]
          simp only [List.length_cons]
          omega
        rw [if_neg (by omega), if_neg (by omega), Int.toNat_natCast, this]
        rfl
      rw [this]

/-- The helium file cut off after its first line hangs; cut off before the last rows it is read, and the
exponents of the rest are missing. -/
example (v : String → ℝ) (hf : (heFile v).wf)
    (h : FileText false (fun w => .ok (.fin (v (String.ofList w)))) (heFile v) heLines) :
    ∃ n < heLines.length, ∃ A,
      parseSlater false (fun w => .ok (.fin (v (String.ofList w)))) (heLines.take n) = some (.ok A) ∧
      A.exps ['S'] = some [.fin (v "6.437494"), .fin (v "3.384356")] := by
  obtain ⟨n, -, h1, A, h2, h3⟩ := C110_silent _ _ _ hf _ h [] _ [] rfl 2 (by norm_num)
  exact ⟨n, h1 (by simp), A, h2, h3.exps _ (List.mem_singleton.2 rfl)⟩

/-- The helium file cut off after its first line is read for ever. -/
example (tf : Str → Py XR) : parseSlater false tf (heLines.take 1) = none := by
  unfold parseSlater
  rw [show readConfig false ((heLines.take 1).headD []) = .ok "1S(2)".toList by decide +kernel]
  rfl

/-- The helium file with a table for a subshell Q instead of its own one raises KeyError. -/
example (v : String → ℝ) (hf : (heFile v).wf)
    (h : FileText false (fun w => .ok (.fin (v (String.ofList w)))) (heFile v) heLines) :
    ∃ head : List Str, head ≠ [] ∧
      parseSlater false (fun w => .ok (.fin (v (String.ofList w))))
        (head ++ ["Q  S  1S".toList, "ENERGY -0.9".toList, "CUSP 1.0".toList, "1Q 2.5 0.7".toList]) =
        some (.error .keyError) := by
  obtain ⟨l0, bl, ex, el, kl, bl', ti, tabs, hp, -⟩ := (fileText_iff _ _ _ _).1 h
  refine ⟨l0 :: (bl ++ (ex ++ el :: kl :: (bl' ++ ti))), by simp, ?_⟩
  have := ((C110_tables false _ _ hf l0 bl ex el kl bl' ti tabs hp "Q  S  1S".toList "Q".toList
    ["S".toList, "1S".toList] (by decide) ⟨['Q'], 'S', "1S".toList, rfl, by decide⟩ (by decide)
    "ENERGY -0.9".toList "ENERGY".toList ["-0.9".toList] (by decide) ["CUSP 1.0".toList]
    (by
      simp only [Bool.false_eq_true, if_false]
      exact ⟨_, [.fin (v "1.0")], rfl, "CUSP".toList, ["1.0".toList], by decide, rfl⟩)
    "1Q 2.5 0.7".toList []).2 [.fin (v "-0.9")] '1' [] ["2.5".toList, "0.7".toList] rfl (by decide)
    (by decide)).1 (by decide)
  simpa using this

end
end BFit
