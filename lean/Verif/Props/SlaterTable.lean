import Verif.Lemmas.SlaterText

/-! Property C71: the contents of a Slater file. -/

namespace BFit

open Classical

noncomputable section

theorem find_label (items : List CfgItem) (os : List Orb) (hos : ∀ o ∈ os, o.valid) (o : Orb) (ho : o ∈ os)
    (h0 : occSpec items o ≠ 0) :
    ((os.map fun o => (o.label, (occSpec items o : ℤ))).filter fun p => p.2 ≠ 0).find?
      (fun p => p.1 = o.label) = some (o.label, (occSpec items o : ℤ)) := by
  induction os with
  | nil => simp at ho
  | cons a os ih =>
    by_cases he : a = o
    · subst he
      rw [List.map_cons, List.filter_cons_of_pos (by simpa using h0), List.find?_cons_of_pos (by simp)]
    · have hl : a.label ≠ o.label := fun e => he (Orb.label_inj (hos a (by simp)) (hos o ho) e)
      have ih' := ih (fun x hx => hos x (by simp [hx])) ((List.mem_cons.mp ho).resolve_left (Ne.symm he))
      by_cases ha : occSpec items a = 0
      · rw [List.map_cons, List.filter_cons_of_neg (by simpa using ha)]
        exact ih'
      · rw [List.map_cons, List.filter_cons_of_pos (by simpa using ha), List.find?_cons_of_neg (by simpa using hl)]
        exact ih'

theorem occOf_ok {items : List CfgItem} (h : WfConfig items) (o : Orb) (ho : o.valid)
    (h0 : occSpec items o ≠ 0) : occOf (cfgText items) o.label = .ok (occSpec items o : ℤ) := by
  unfold occOf
  rw [C69_configuration items h]
  simp only
  rw [find_label items allOrbs (fun x hx => (mem_allOrbs x).mp hx) o ((mem_allOrbs o).mpr ho) h0]

theorem mapPy_all {α β : Type} (f : α → Py β) (g : α → β) (l : List α) (h : ∀ x ∈ l, f x = .ok (g x)) :
    mapPy f l = .ok (l.map g) := by
  induction l with
  | nil => rfl
  | cons x l ih =>
    rw [mapPy, h x (by simp), ih (fun y hy => h y (by simp [hy]))]
    rfl

theorem block_orb_valid {b : TBlock} (hb : b.wf) {o : Orb} (ho : o ∈ b.orbs) : o.valid := by
  unfold TBlock.orbs at ho
  obtain ⟨i, hi, rfl⟩ := List.mem_map.mp ho
  have := List.mem_range.mp hi
  have := hb.1
  constructor
  · change b.sub.l < b.sub.l + 1 + i
    omega
  · change b.sub.l + 1 + i ≤ 7
    omega

theorem tables_wf {heavy : Bool} {tf : Str → Py XR} {bs : List TBlock} {lines : List Str}
    (h : TablesText heavy tf bs lines) : ∀ b ∈ bs, b.wf := by
  induction h with
  | eof => simp
  | blank _ => simp
  | cons hb _ _ ih =>
    intro b' hb'
    rcases List.mem_cons.mp hb' with rfl | hb'
    · exact hb
    · exact ih b' hb'

theorem dropEmpty_some {α : Type} (d : Str → Option (List α)) (k : Str) (l : List α) (h : d k = some l)
    (hl : l ≠ []) : dropEmpty d k = some l := by
  unfold dropEmpty
  rw [h]
  cases l with
  | nil => exact absurd rfl hl
  | cons x l => rfl

theorem emptyDict_letter {α : Type} (s : Sub) : (emptyDict : Str → Option (List α)) [s.letter] = some [] := by
  unfold emptyDict
  cases s <;> rfl

theorem dropEmpty_empty {α : Type} (d : Str → Option (List α)) (k : Str) (h : d k = emptyDict k) :
    dropEmpty d k = none := by
  unfold dropEmpty
  rw [h]
  unfold emptyDict
  by_cases hk : k = ['S'] ∨ k = ['P'] ∨ k = ['D'] ∨ k = ['F']
  · rw [if_pos hk]
  · rw [if_neg hk]

theorem firstInt_rows (rows : List TRow) (s : Sub) (h : ∀ r ∈ rows, r.n ≤ 9) :
    mapPy firstInt (rows.map fun r => Orb.label ⟨r.n, s⟩) = .ok (rows.map fun r => (r.n : ℤ)) := by
  induction rows with
  | nil => rfl
  | cons r rows ih =>
    rw [List.map_cons, mapPy, ih (fun r' hr' => h r' (by simp [hr']))]
    unfold Orb.label firstInt
    simp only [pyInt_digitChar (h r (by simp))]
    rfl

theorem readConfig_ok (heavy : Bool) (f : SFile) (hw : ∀ it ∈ f.items, it.wf) (l0 name w : Str)
    (ws : List Str) (h1 : Words l0 (name :: w :: ws))
    (h2 : w.filter (· ≠ ',') = f.core.text ++ cfgText f.items) (h3 : heavy = true ↔ f.core ≠ .all) :
    readConfig heavy l0 = .ok (cfgText f.config) := by
  unfold readConfig
  rw [words_iff.1 h1, show pyGet (name :: w :: ws) 1 = .ok w from rfl]
  simp only
  rw [h2]
  unfold SFile.config
  have hc := C69_cores f.items hw
  cases hcore : f.core with
  | all =>
    have : heavy ≠ true := fun h => h3.mp h hcore
    rw [if_neg this]
    rfl
  | xe =>
    rw [if_pos (h3.mpr (by rw [hcore]; simp))]
    exact hc.1
  | rn =>
    rw [if_pos (h3.mpr (by rw [hcore]; simp))]
    exact hc.2.1

/-- The tables of a file are read as printed. -/
theorem parseTables_ok (heavy : Bool) (tf : Str → Py XR) (f : SFile) (hf : f.wf) (bl ti tabs : List Str)
    (hbl : ∀ l ∈ bl, Blank l) (hti : ∀ l ∈ ti, ¬ Blank l ∧ ¬ HasPattern l)
    (ht : TablesText heavy tf f.blocks tabs) :
    ∃ A, parseTables heavy tf (cfgText f.config) f.energy (f.kinetic, f.potential) (bl ++ (ti ++ tabs)) =
      some (.ok A) ∧ Reads heavy f A := by
  have hwf := tables_wf ht
  have hfirst : ∃ l rest, ti ++ tabs = l :: rest ∧ ¬ Blank l := by
    cases ti with
    | cons l ti => exact ⟨l, ti ++ tabs, rfl, (hti l (by simp)).1⟩
    | nil =>
      have hne := hf.nonempty
      revert hne
      clear hwf hf
      generalize f.blocks = bs at ht
      cases ht with
      | eof => exact fun h => absurd rfl h
      | blank _ => exact fun h => absurd rfl h
      | @cons b bs ls rest hb hbt hr =>
        intro _
        obtain ⟨hl, el, cl, rl, rfl, h1, -⟩ := hbt
        exact ⟨hl, _, rfl, by rw [blank_iff, words_iff.1 h1.1]; simp⟩
  obtain ⟨l, rest, e, hl⟩ := hfirst
  obtain ⟨t, ht1, a⟩ := tables_ok heavy tf f.blocks tabs ht hf.subs .scan .scan Tbl.empty
    (fun b _ => ⟨[], emptyDict_letter b.sub⟩) (fun b _ => ⟨[], emptyDict_letter b.sub⟩)
  have htl : tableLoop heavy tf (l :: rest) .scan Tbl.empty = .ok t := by
    rw [← e, titles_ok heavy tf ti hti, ht1]
  have horb : t.orbitals = f.orbs.map Orb.label := by
    rw [a.orbitals]
    rfl
  have hocc : mapPy (occOf (cfgText f.config)) t.orbitals =
      .ok (f.orbs.map fun o => (occSpec f.config o : ℤ)) := by
    rw [horb]
    have key : ∀ os : List Orb, (∀ o ∈ os, o ∈ f.orbs) → mapPy (occOf (cfgText f.config)) (os.map Orb.label) =
        .ok (os.map fun o => (occSpec f.config o : ℤ)) := by
      intro os
      induction os with
      | nil => exact fun _ => rfl
      | cons o os ih =>
        intro hos
        have ho := hos o (by simp)
        have hv : o.valid := by
          obtain ⟨b, hb, hob⟩ := List.mem_flatMap.mp ho
          exact block_orb_valid (hwf b hb) hob
        rw [List.map_cons, mapPy, occOf_ok hf.config o hv (hf.occ o ho), ih (fun x hx => hos x (by simp [hx]))]
        rfl
    exact key f.orbs (fun _ h => h)
  have hbasis : ∀ b ∈ f.blocks, t.basis [b.sub.letter] = some (b.rows.map fun r => Orb.label ⟨r.n, b.sub⟩) := by
    intro b hb
    rw [a.basis b hb, show Tbl.empty.basis [b.sub.letter] = some [] from emptyDict_letter b.sub]
    rfl
  have hnum : ∀ b ∈ f.blocks, mapKey (dropEmpty t.basis) [b.sub.letter] =
      .ok (some (b.rows.map fun r => (r.n : ℤ))) := by
    intro b hb
    unfold mapKey
    rw [dropEmpty_some _ _ _ (hbasis b hb) (by simpa using hf.rows b hb)]
    simp only
    rw [firstInt_rows b.rows b.sub (fun r hr => ((hwf b hb).2 r hr).1)]
    rfl
  have hno : ∀ k, (∀ b ∈ f.blocks, k ≠ [b.sub.letter]) → mapKey (dropEmpty t.basis) k = .ok none := by
    intro k hk
    unfold mapKey
    rw [dropEmpty_empty t.basis k (a.basis_other k hk)]
  have hkey : ∀ k, ∃ v, mapKey (dropEmpty t.basis) k = .ok v := by
    intro k
    by_cases hk : ∀ b ∈ f.blocks, k ≠ [b.sub.letter]
    · exact ⟨_, hno k hk⟩
    · push Not at hk
      obtain ⟨b, hb, rfl⟩ := hk
      exact ⟨_, hnum b hb⟩
  choose g hg using hkey
  have hall : mapPy (mapKey (dropEmpty t.basis)) [['S'], ['P'], ['D'], ['F']] =
      .ok ([['S'], ['P'], ['D'], ['F']].map g) := mapPy_all _ g _ (fun k _ => hg k)
  refine ⟨{ configuration := cfgText f.config, energy := f.energy, kinetic := f.kinetic,
            potential := f.potential, orbitals := t.orbitals, energies := t.energies, cusp := t.cusp,
            basis := t.basis, exps := dropEmpty t.exps, coeff := dropEmpty t.coeff,
            occ := f.orbs.map fun o => (occSpec f.config o : ℤ),
            nums := fun k => match mapKey (dropEmpty t.basis) k with
              | .ok l => l
              | .error _ => none }, ?_, ?_⟩
  · unfold parseTables
    rw [e, skipBlank_ok bl hbl l hl rest]
    simp only [htl]
    unfold assemble
    rw [hocc]
    simp only [hall]
    rfl
  · constructor
    · rfl
    · rfl
    · rfl
    · rfl
    · exact horb
    · rfl
    · exact a.energies
    · simp only [a.cusp]
      rfl
    · intro b hb
      refine dropEmpty_some _ _ _ ?_ (by simpa using hf.rows b hb)
      rw [a.exps b hb, show Tbl.empty.exps [b.sub.letter] = some [] from emptyDict_letter b.sub]
      rfl
    · intro b hb
      simp only [hnum b hb]
    · exact hbasis
    · intro b hb i hi
      exact dropEmpty_some _ _ _ (a.coeff b hb i hi) (by simpa using hf.rows b hb)
    · intro k hk
      refine ⟨dropEmpty_empty _ k (a.exps_other k hk), ?_⟩
      simp only [hno k hk]
    · intro x hx
      have : t.coeff x = none := by
        rw [a.coeff_other x (fun b hb i hi => hx _ (List.mem_flatMap.mpr ⟨b, hb, List.mem_map.mpr
          ⟨i, List.mem_range.mpr hi, rfl⟩⟩))]
        rfl
      change dropEmpty t.coeff x = none
      unfold dropEmpty
      rw [this]

/-- Every file in the documented format is read, and the dictionary agrees with the file: each orbital gets
the column of coefficients printed under it, one for each exponent of the subshell, and the occupations
are those of the configuration in the order of the orbitals. -/
theorem C71_file (heavy : Bool) (tf : Str → Py XR) (f : SFile) (hf : f.wf) (lines : List Str)
    (h : FileText heavy tf f lines) :
    ∃ A, parseSlater heavy tf lines = some (.ok A) ∧ Reads heavy f A := by
  obtain ⟨l0, name, w, ws, bl, ex, el, kl, bl', ti, tabs, rfl, h1, h2, h3, h4, h5, h6, h7, h8, h9, h10⟩ := h
  obtain ⟨A, hA, hR⟩ := parseTables_ok heavy tf f hf bl' ti tabs h8 h9 h10
  refine ⟨A, ?_, hR⟩
  have hw : ∀ it ∈ f.items, it.wf := fun it hi => hf.config.1 it (by
    unfold SFile.config
    exact List.mem_append.mpr (Or.inr hi))
  unfold parseSlater
  rw [List.headD_cons, readConfig_ok heavy f hw l0 name w ws h1 h2 h3, List.tail_cons]
  simp only
  cases heavy with
  | false =>
    simp only [Bool.false_eq_true, if_false] at h5 ⊢
    rw [h5, List.nil_append, skipBlank_ok bl h4 el (energyLine_nonblank tf _ el h6)]
    simp only [energyLine_ok tf _ el h6, List.headD_cons, kineticLine_ok tf _ _ kl h7, List.tail_cons]
    exact hA
  | true =>
    simp only [if_true] at h5 ⊢
    obtain ⟨h5, h5'⟩ := h5
    match ex, h5, h5' with
    | [a, b, c, d, e, g], _, h5' =>
      rw [List.cons_append, skipBlank_ok bl h4 a h5']
      simp only [List.cons_append, List.nil_append, List.drop_succ_cons, List.drop_zero, List.headD_cons,
        energyLine_ok tf _ el h6, kineticLine_ok tf _ _ kl h7, List.tail_cons]
      exact hA

end
end BFit
