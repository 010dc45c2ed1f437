import Verif.Lemmas.DataNumSound

/-! From the checks of a data file to the atom. -/

namespace BFit

open Real MeasureTheory Set Classical

noncomputable section

theorem hasZ_unique {e : Str} {z z' : ℕ} (h : HasZ e z) (h' : HasZ e z') : z = z' := by
  have hn : symbols.Nodup := by decide +kernel
  have hlt : z - 1 < symbols.length := by
    by_contra hc
    have h2 := h.2
    rw [List.getElem?_eq_none (not_lt.mp hc)] at h2
    exact absurd h2 (by simp)
  have := (List.getElem?_inj hlt hn).mp (h.2.trans h'.2.symm)
  have h1 := h.1
  have h2 := h'.1
  omega

/-- A file that passes the checks is read by the constructor, and the checks say what it holds. -/
theorem ok_sound {d : DataFile} (h : d.ok = true) (hc : d.charge = .anion → hasAnion d.z)
    (hc' : d.charge = .cation → hasCation d.z ∧ d.z ≠ 55) (isAlpha : Str → Bool) (low : Str → Str) (tf : Str → Py XR)
    (ht : ReadsDecimals tf) (fs : Str → Option (List Str)) (s : Str) (ha : isAlpha s = true)
    (hz : HasZ (low s) d.z) (hfs : fs (d.charge.path (low s)) = some d.lines) :
    ∃ (R : RawAtom) (f : DFile), scanFile d.heavy d.lines = some f ∧ f.Good (d.charge.electrons d.z) ∧
      (∀ b ∈ f.blocks, b.good) ∧
      (∃ t, lastMax f = some t ∧ (t = true ↔ d.z ∈ lastIsHighest d.charge)) ∧
      Reads d.heavy f.toS R ∧
      slaterInit isAlpha low tf fs (.str s) (decide (d.charge = .anion)) (decide (d.charge = .cation)) =
        some (.ok R) := by
  unfold DataFile.ok at h
  cases hs : scanFile d.heavy d.lines with
  | none => rw [hs] at h; exact absurd h (by simp)
  | some f =>
    rw [hs] at h
    simp only [Bool.and_eq_true, beq_iff_eq] at h
    obtain ⟨hT, hg⟩ := scanFile_sound ht hs
    have hG := fileOk_sound h.1 hg
    obtain ⟨R, r1, r2⟩ := C71_file d.heavy tf f.toS hG.wf d.lines hT
    refine ⟨R, f, rfl, hG, hg, ⟨_, h.2, decide_eq_true_iff⟩, r2, ?_⟩
    obtain ⟨z, ch, ls⟩ := d
    cases ch with
    | neutral =>
      have := (C70_neutral isAlpha low tf fs s ha (DataFile.heavy ⟨z, .neutral, ls⟩) ?_).2 ls hfs
      · simp only [reduceCtorEq, decide_false]
        rw [this, r1]
      · have hu : ∀ z', HasZ (low s) z' → z' = z := fun z' hz' => hasZ_unique hz' hz
        simp only [DataFile.heavy, beq_self_eq_true, Bool.true_and, decide_eq_true_eq]
        constructor
        · exact fun h55 => ⟨z, hz, h55⟩
        · rintro ⟨z', hz', h55⟩
          rw [hu z' hz'] at h55
          exact h55
    | anion =>
      have := ((C70_anion isAlpha low tf fs s ha).1 ⟨z, hz, hc rfl⟩).2 ls hfs
      simp only [reduceCtorEq, decide_false, decide_true]
      rw [this]
      exact r1 ▸ rfl
    | cation =>
      have := ((C70_cation isAlpha low tf fs s ha).1 z hz (hc' rfl).1).2 ls hfs
      rw [decide_eq_false (hc' rfl).2] at this
      simp only [reduceCtorEq, decide_false, decide_true]
      rw [this]
      exact r1 ▸ rfl

/-- The constructor reads the file; the orbitals are those of an atom with `N` electrons, orthonormal up to
`1e-5` and `1e-6`; the density and the kinetic energy density integrate to the numbers they should. -/
structure Loads (d : DataFile) (R : RawAtom) (A : SlaterAtom) : Prop where
  occ : R.occ.sum = d.charge.electrons d.z
  orbs : ∃ phi : Orb → ℝ → ℝ,
    (∀ x : List ℝ, A.phiMatrix (ND.vec (fins x)) false =
      .ok (x.map fun r => fins (A.orbitals.map fun o => phi o r))) ∧
    (∀ o ∈ A.orbitals, |(∫ r in Ioi (0 : ℝ), r ^ 2 * phi o r ^ 2) - 1| ≤ 1e-5) ∧
    ∀ o ∈ A.orbitals, ∀ o' ∈ A.orbitals, o ≠ o' → o.sub = o'.sub →
      |∫ r in Ioi (0 : ℝ), r ^ 2 * (phi o r * phi o' r)| ≤ 1e-6
  dens : ∃ t : ℝ → ℝ,
    (∀ x : List ℝ, A.atomicDensity (ND.vec (fins x)) "total" = .ok (fins (x.map t))) ∧
    Integrable (fun p : EuclideanSpace ℝ (Fin 3) => t ‖p‖) ∧
    |(∫ p : EuclideanSpace ℝ (Fin 3), t ‖p‖) - d.charge.electrons d.z| ≤ 1e-5 * d.charge.electrons d.z
  energy : ∃ E T V : ℝ, R.energy = .fin E ∧ R.kinetic = .fin T ∧ R.potential = .fin V ∧
    |E - (T + V)| ≤ 2e-9 ∧ |V + 2 * T| ≤ 2e-8 * T ∧
    ∃ k : ℝ → ℝ,
      (∀ x : List ℝ, (∀ r ∈ x, 1e-10 ≤ |r|) → A.kinetic (ND.vec (fins x)) = .ok (fins (x.map k))) ∧
      Integrable (fun p : EuclideanSpace ℝ (Fin 3) => k ‖p‖) ∧
      |(∫ p : EuclideanSpace ℝ (Fin 3), k ‖p‖) - T| ≤ 3e-7 * T
  last : ∃ en : List ℝ, ∃ e, A.energies = fins en ∧ en.length = A.orbitals.length ∧ en.getLast? = some e ∧
    ((∀ x ∈ en, x ≤ e) ↔ d.z ∈ lastIsHighest d.charge)

theorem good_loads {d : DataFile} {f : DFile} {R : RawAtom} {A : SlaterAtom} {heavy : Bool}
    (hG : f.Good (d.charge.electrons d.z)) (hg : ∀ b ∈ f.blocks, b.good)
    (hl : ∃ t, lastMax f = some t ∧ (t = true ↔ d.z ∈ lastIsHighest d.charge))
    (hR : Reads heavy f.toS R) (hA : Stores R A) : Loads d R A := by
  have hwf : ∀ b ∈ f.toS.blocks, b.wf := by
    intro b hb
    obtain ⟨b', hb', rfl⟩ := List.mem_map.mp hb
    exact (hg b' hb').wf
  have hfin : ∀ b ∈ f.toS.blocks, b.finite := by
    intro b hb
    obtain ⟨b', hb', rfl⟩ := List.mem_map.mp hb
    exact (hg b' hb').finite
  obtain ⟨horb, en, hs⟩ := loaded_isSlater hG.wf hwf hfin hR hA
  have hpos : ∀ o ∈ f.toS.orbs, ∀ b ∈ f.toS.basisOf o.sub, 0 < b.1 ∧ 1 ≤ b.2 := horb ▸ hs.pos
  refine ⟨?_, ?_, ?_, ?_, ?_⟩
  · rw [hR.occ, ← hG.electrons]
    push_cast
    rw [List.map_map]
    rfl
  · refine ⟨fun o r => orbR (f.toS.basisOf o.sub) (f.toS.coeffOf o) r, fun x => ?_, fun o ho => ?_, ?_⟩
    · rw [phiMatrix_fins hs]
      rfl
    · rw [horb] at ho
      rw [(orb_integral _ _ (hpos o ho)).2]
      exact hG.norm o ho
    · intro o ho o' ho' hne hsub
      rw [horb] at ho ho'
      rcases lt_trichotomy o.n o'.n with hlt | heq | hgt
      · have := (orb_integral_aux _ (f.toS.coeffOf o') (hpos o' ho') _ (f.toS.coeffOf o) (hpos o ho)).2
        simp only [mul_comm (orbR (f.toS.basisOf o.sub) (f.toS.coeffOf o) _)]
        rw [this]
        exact hG.orth o' ho' o ho hsub.symm hlt
      · exact absurd (show o = o' by cases o; cases o'; simp_all) hne
      · have := (orb_integral_aux _ (f.toS.coeffOf o) (hpos o ho) _ (f.toS.coeffOf o') (hpos o' ho')).2
        simp only at this ⊢
        rw [this]
        exact hG.orth o ho o' ho' hsub hgt
  · obtain ⟨i1, i2⟩ := dens_integral A.orbitals f.toS.basisOf f.toS.coeffOf _ hs.pos
    refine ⟨_, atomicDensity_total hs, (integrable_radial _).mpr i1, ?_⟩
    rw [integral_radial, i2, horb, wsum_map, ← hG.electrons]
    have key : ∀ os : List Orb, (∀ o ∈ os, |normSq (f.toS.basisOf o.sub) (f.toS.coeffOf o) - 1| ≤ 1e-5) →
        |(os.map fun o => (occSpec f.toS.config o : ℝ) *
          normSq (f.toS.basisOf o.sub) (f.toS.coeffOf o)).sum - ((os.map (occSpec f.toS.config)).sum : ℕ)| ≤
        1e-5 * ((os.map (occSpec f.toS.config)).sum : ℕ) := by
      intro os
      induction os with
      | nil => simp
      | cons o os ih =>
        intro h
        have h1 := abs_le.mp (ih fun o' ho' => h o' (by simp [ho']))
        have h2 := abs_le.mp (h o (by simp))
        have h0 : (0 : ℝ) ≤ occSpec f.toS.config o := Nat.cast_nonneg _
        simp only [List.map_cons, List.sum_cons]
        push_cast at h1 ⊢
        rw [abs_le]
        constructor <;> nlinarith [h1.1, h1.2, mul_le_mul_of_nonneg_left h2.1 h0,
          mul_le_mul_of_nonneg_left h2.2 h0]
    exact key _ hG.norm
  · refine ⟨_, _, _, hR.energy, hR.kinetic, hR.potential, hG.energy, hG.virial, ?_⟩
    obtain ⟨k, k1, k2, k3⟩ := C87_kinetic_energy hs
    refine ⟨k, k1, k2, ?_⟩
    rw [k3, horb, wsum_map]
    convert hG.kinetic using 3
    generalize f.toS.orbs = os
    induction os with
    | nil => simp
    | cons o os ih =>
      simp only [List.map_cons, List.sum_cons, ih]
      ring
  · obtain ⟨t, t1, t2⟩ := hl
    obtain ⟨es, e, e1, e2, e3⟩ := lastMax_sound t1
    refine ⟨es, e, by rw [hA.energies, hR.energies, e1], ?_, e2, e3.trans t2⟩
    have h1 := hs.en_eq
    have h2 := hs.en_len
    rw [hA.energies, hR.energies, e1] at h1
    rw [← h2, ← List.length_map (f := XR.fin) (as := en), ← List.length_map (f := XR.fin) (as := es)]
    exact congrArg List.length h1

end
end BFit
