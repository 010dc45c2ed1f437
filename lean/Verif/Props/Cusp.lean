import Verif.Data.Cusp1
import Verif.Data.Cusp2
import Verif.Data.Cusp3
import Verif.Data.Cusp4
import Verif.Lemmas.CuspSound
import Verif.Props.Bundled

/-! Property C103: the cusps in the bundled files and the cusp condition of the bundled atoms. -/

namespace BFit

open Real Set

noncomputable section

theorem bundled_cusp : ∀ d ∈ Data.bundled, d.cuspOk = true := by
  intro d hd
  have h : Data.bundled.all DataFile.cuspOk = true := by
    unfold Data.bundled
    simp only [List.all_append, Data.part1_cusp, Data.part2_cusp, Data.part3_cusp, Data.part4_cusp, Data.part5_cusp,
      Data.part6_cusp, Data.part7_cusp, Data.part8_cusp, Data.part9_cusp, Data.part10_cusp, Data.part11_cusp,
      Data.part12_cusp, Data.part13_cusp, Data.part14_cusp, Bool.and_self]
  exact List.all_eq_true.mp h d hd

theorem cuspOk_sound {d : DataFile} (h : d.cuspOk = true) {f : DFile} (hs : scanFile d.heavy d.lines = some f) :
    (∀ b ∈ f.blocks, ∀ r ∈ b.rows, b.sub.l + 1 ≤ r.n) ∧
    (d.heavy = false → ∀ b ∈ f.blocks, cuspBlock d.z b = true) ∧
    ∃ u, katoBlocks d.z (f.core.items ++ f.items) f.blocks = some u ∧ 1 ≤ u.2 ∧ u.1 * 1000 ≤ d.z * u.2 := by
  unfold DataFile.cuspOk at h
  rw [hs] at h
  simp only [Bool.and_eq_true, List.all_eq_true, Bool.or_eq_true, Nat.ble_eq] at h
  obtain ⟨h1, h2⟩ := h
  refine ⟨fun b hb => (h1 b hb).1, fun hh b hb => ((h1 b hb).2).resolve_left (by simp [hh]), ?_⟩
  cases hu : katoBlocks d.z (f.core.items ++ f.items) f.blocks with
  | none => rw [hu] at h2; exact absurd h2 (by simp)
  | some u =>
    rw [hu] at h2
    simp only [Bool.and_eq_true, Nat.ble_eq] at h2
    exact ⟨u, rfl, h2.1, h2.2⟩

theorem file_orbs (f : DFile) : f.toS.orbs = f.blocks.flatMap DBlock.orbs := by
  unfold SFile.orbs
  simp only [DFile.toS, List.flatMap_map]
  rfl

theorem file_basis {f : DFile} (hw : f.toS.wf) {b : DBlock} (hb : b ∈ f.blocks) :
    f.toS.basisOf b.sub = b.basis := by
  have := flatMap_unique f.toS.blocks hw.subs
    (fun b : TBlock => b.rows.map fun r : TRow => (reOf r.z, r.n)) b.toT (List.mem_map.mpr ⟨b, hb, rfl⟩)
  refine this.trans ?_
  simp only [DBlock.toT, DBlock.basis, List.map_map]
  rfl

theorem file_col {f : DFile} (hw : f.toS.wf) {b : DBlock} (hb : b ∈ f.blocks) (i : ℕ) :
    f.toS.coeffOf ⟨b.sub.l + 1 + i, b.sub⟩ = b.col i := by
  have := flatMap_unique f.toS.blocks hw.subs
    (fun b' => b'.rows.map fun r => reOf (r.cs.getD (b.sub.l + 1 + i - b.sub.l - 1) 0)) b.toT
      (List.mem_map.mpr ⟨b, hb, rfl⟩)
  refine this.trans ?_
  rw [show b.sub.l + 1 + i - b.sub.l - 1 = i by omega]
  simp only [DBlock.toT, DBlock.col, List.map_map]
  rfl

theorem forall₂_flatMap {α β γ : Type} {R : β → γ → Prop} (l : List α) (f : α → List β) (g : α → List γ)
    (h : ∀ a ∈ l, List.Forall₂ R (f a) (g a)) : List.Forall₂ R (l.flatMap f) (l.flatMap g) := by
  induction l with
  | nil => exact List.Forall₂.nil
  | cons a l ih =>
    rw [List.flatMap_cons, List.flatMap_cons]
    exact List.rel_append (h a (by simp)) (ih fun b hb => h b (by simp [hb]))

theorem fins_flatMap {α : Type} (l : List α) (f : α → List ℝ) :
    (l.flatMap fun a => fins (f a)) = fins (l.flatMap f) := by
  induction l with
  | nil => rfl
  | cons a l ih => rw [List.flatMap_cons, List.flatMap_cons, ih]; simp [fins]

/-- **C103** (cusps).  The attribute `orbitals_cusp` of a bundled atom (other than the neutral ones from 55 on, whose files have no cusps) holds one number for
each orbital, in the order of the orbitals: `phi o r = r^l q r`, where `q` has a value other than 0 and a derivative
at the nucleus, and `-(l + 1) q' 0 / (z q 0)` is the number up to `1.5e-4`. -/
theorem C103_cusp (d : DataFile) (hd : d ∈ Data.bundled) (isAlpha : Str → Bool) (low : Str → Str)
    (tf : Str → Py XR) (ht : ReadsDecimals tf) (fs : Str → Option (List Str)) (s : Str) (ha : isAlpha s = true)
    (hz : HasZ (low s) d.z) (hfs : fs (d.charge.path (low s)) = some d.lines) :
    ∃ R : RawAtom,
      slaterInit isAlpha low tf fs (.str s) (decide (d.charge = .anion)) (decide (d.charge = .cation)) =
        some (.ok R) ∧
      (d.charge = .neutral ∧ 55 ≤ d.z → R.cusp = []) ∧ (¬(d.charge = .neutral ∧ 55 ≤ d.z) → ∃ cu : List ℝ, R.cusp = fins cu ∧
        ∀ A, Stores R A → ∃ phi : Orb → ℝ → ℝ,
          (∀ x : List ℝ, A.phiMatrix (ND.vec (fins x)) false =
            .ok (x.map fun r => fins (A.orbitals.map fun o => phi o r))) ∧
          List.Forall₂ (fun o κ => ∃ (q : ℝ → ℝ) (b : ℝ), (∀ r, phi o r = r ^ o.sub.l * q r) ∧ q 0 ≠ 0 ∧
            HasDerivAt q b 0 ∧ |-(o.sub.l + 1) * b / (d.z * q 0) - κ| ≤ 1.5e-4) A.orbitals cu) := by
  obtain ⟨R, f, hsc, hG, hg, hl, hR, hi⟩ := ok_sound (Data.bundled_ok d hd) (bundled_anion hd) (bundled_cation hd)
    isAlpha low tf ht fs s ha hz hfs
  have hheavy : d.heavy = true ↔ d.charge = .neutral ∧ 55 ≤ d.z := by simp [DataFile.heavy]
  refine ⟨R, hi, fun hh => by rw [hR.cusp, hheavy.mpr hh]; rfl, fun hh => ?_⟩
  rw [← hheavy, Bool.not_eq_true] at hh
  have hwf : ∀ b ∈ f.toS.blocks, b.wf := by
    intro b hb
    obtain ⟨b', hb', rfl⟩ := List.mem_map.mp hb
    exact (hg b' hb').wf
  have hfin : ∀ b ∈ f.toS.blocks, b.finite := by
    intro b hb
    obtain ⟨b', hb', rfl⟩ := List.mem_map.mp hb
    exact (hg b' hb').finite
  obtain ⟨hn, hcu, -⟩ := cuspOk_sound (bundled_cusp d hd) hsc
  refine ⟨f.blocks.flatMap fun b => b.cusps.map Dec.val, ?_, fun A hA => ?_⟩
  · rw [hR.cusp, hh, ← fins_flatMap]
    simp only [Bool.false_eq_true, if_false, DFile.toS, List.flatMap_map]
    congr 1
    funext b
    simp [DBlock.toT, fins, Dec.fl]
  · obtain ⟨horb, en, hs⟩ := loaded_isSlater hG.wf hwf hfin hR hA
    refine ⟨fun o r => orbR (f.toS.basisOf o.sub) (f.toS.coeffOf o) r, fun x => ?_, ?_⟩
    · rw [phiMatrix_fins hs x false]
      rfl
    · rw [horb, file_orbs]
      refine forall₂_flatMap _ _ _ fun b hb => ?_
      unfold DBlock.orbs
      rw [List.forall₂_map_left_iff]
      refine (cuspBlock_sound (hcu hh b hb)).imp fun i κ hk => ?_
      simp only
      rw [file_basis hG.wf hb, file_col hG.wf hb]
      have hl : ∀ p ∈ b.basis, b.sub.l + 1 ≤ p.2 := by
        intro p hp
        obtain ⟨r, hr, rfl⟩ := List.mem_map.mp hp
        exact hn b hb r hr
      have hq := nucQ_zero b.sub.l b.basis (b.col i) hl
      obtain ⟨h0, hle⟩ := hk
      rw [← hq] at h0 hle
      refine ⟨nucQ b.sub.l b.basis (b.col i), _, fun r => orbR_nucQ _ _ _ hl r, h0, nucQ_deriv _ _ _ hl, ?_⟩
      have hz1 : (0 : ℝ) < d.z := by exact_mod_cast hz.1
      set q0 := nucQ b.sub.l b.basis (b.col i) 0
      set B := wsum (b.basis.map (nucB b.sub.l)) (b.col i)
      have hp : 0 < (d.z : ℝ) * |q0| := mul_pos hz1 (abs_pos.mpr h0)
      have e : -((b.sub.l : ℝ) + 1) * B / (d.z * q0) - κ =
          -((b.sub.l + 1) * B + κ * d.z * q0) / (d.z * q0) := by
        field_simp
        ring
      rw [e, abs_div, abs_neg, abs_mul, Nat.abs_cast, div_le_iff₀ hp]
      refine hle.trans (le_of_eq ?_)
      ring

/-- **C103** (cusp condition).  The total density of every bundled atom has a slope at the nucleus, which is `-2 z`
times its value up to a factor `1 ± 1e-3`. -/
theorem C103_kato (d : DataFile) (hd : d ∈ Data.bundled) (isAlpha : Str → Bool) (low : Str → Str)
    (tf : Str → Py XR) (ht : ReadsDecimals tf) (fs : Str → Option (List Str)) (s : Str) (ha : isAlpha s = true)
    (hz : HasZ (low s) d.z) (hfs : fs (d.charge.path (low s)) = some d.lines) :
    ∃ R : RawAtom,
      slaterInit isAlpha low tf fs (.str s) (decide (d.charge = .anion)) (decide (d.charge = .cation)) =
        some (.ok R) ∧
      ∀ A, Stores R A → ∃ (t : ℝ → ℝ) (D : ℝ),
        (∀ x : List ℝ, A.atomicDensity (ND.vec (fins x)) "total" = .ok (fins (x.map t))) ∧
        HasDerivAt t D 0 ∧ 0 < t 0 ∧ |D / (-2 * d.z * t 0) - 1| ≤ 1e-3 := by
  obtain ⟨R, f, hsc, hG, hg, hl, hR, hi⟩ := ok_sound (Data.bundled_ok d hd) (bundled_anion hd) (bundled_cation hd)
    isAlpha low tf ht fs s ha hz hfs
  refine ⟨R, hi, fun A hA => ?_⟩
  have hwf : ∀ b ∈ f.toS.blocks, b.wf := by
    intro b hb
    obtain ⟨b', hb', rfl⟩ := List.mem_map.mp hb
    exact (hg b' hb').wf
  have hfin : ∀ b ∈ f.toS.blocks, b.finite := by
    intro b hb
    obtain ⟨b', hb', rfl⟩ := List.mem_map.mp hb
    exact (hg b' hb').finite
  obtain ⟨hn, -, u, hu, hu1, hu2⟩ := cuspOk_sound (bundled_cusp d hd) hsc
  obtain ⟨horb, en, hs⟩ := loaded_isSlater hG.wf hwf hfin hR hA
  obtain ⟨e1, e2⟩ := dens_nucleus A.orbitals f.toS.basisOf f.toS.coeffOf _ fun o ho b hb => (hs.pos o ho b hb).2
  obtain ⟨k1, k2⟩ := kato_of_sums (katoBlocks_sound hn hu) hu1 hu2
  have key : ∀ g : ℝ × ℝ → ℝ,
      wsum (A.orbitals.map fun o => g (wsum ((f.toS.basisOf o.sub).map (nucA 0)) (f.toS.coeffOf o),
        wsum ((f.toS.basisOf o.sub).map (nucB 0)) (f.toS.coeffOf o)))
        (f.toS.orbs.map fun o => (occSpec f.toS.config o : ℝ)) =
      ((f.blocks.flatMap (DBlock.nuc (f.core.items ++ f.items))).map fun p => (p.1 : ℝ) * g p.2).sum := by
    intro g
    rw [horb, wsum_map, file_orbs]
    congr 1
    rw [List.map_flatMap, List.map_flatMap, List.flatMap_def, List.flatMap_def]
    congr 1
    apply List.map_congr_left
    intro b hb
    unfold DBlock.orbs DBlock.nuc
    rw [List.map_map, List.map_map]
    apply List.map_congr_left
    intro i _
    simp only [Function.comp]
    rw [file_basis hG.wf hb, file_col hG.wf hb]
    exact congrArg (fun n : ℕ => (n : ℝ) * _) (occC_eq hG.wf.config _).symm
  have s1 := key fun p => p.1 ^ 2
  have s2 := key fun p => 2 * p.1 * p.2
  simp only at s1 s2
  rw [s1] at e1
  rw [s2] at e2
  set S := ((f.blocks.flatMap (DBlock.nuc (f.core.items ++ f.items))).map fun p => (p.1 : ℝ) * p.2.1 ^ 2).sum
  set D := ((f.blocks.flatMap (DBlock.nuc (f.core.items ++ f.items))).map fun p =>
    (p.1 : ℝ) * (2 * p.2.1 * p.2.2)).sum
  have hpi : (0 : ℝ) < 4 * π := by positivity
  have hz1 : (0 : ℝ) < d.z := by exact_mod_cast hz.1
  refine ⟨_, _, atomicDensity_total hs, e2, ?_, ?_⟩
  · rw [e1]
    exact div_pos k1 hpi
  · rw [e1]
    have hp : 0 < 2 * (d.z : ℝ) * S := by positivity
    have e : D / (4 * π) / (-2 * d.z * (S / (4 * π))) - 1 = -((D + 2 * d.z * S) / (2 * d.z * S)) := by
      field_simp
      ring
    rw [e, abs_neg, abs_div, abs_of_pos hp, div_le_iff₀ hp]
    refine k2.trans (le_of_eq ?_)
    ring

/-- The anion of carbon: one cusp for each orbital, and the slope of the density. -/
theorem C103_example : ∃ (R : RawAtom) (A : SlaterAtom) (cu : List ℝ) (t : ℝ → ℝ) (D : ℝ),
    slaterInit (fun _ => true) (fun s => s.map Char.toLower) (fun w => .ok (.fin (readDec w)))
      (fun p => if p = "/data/anion/c.an".toList then some Data.anion_c.lines else none) (.str "C".toList) true false =
      some (.ok R) ∧ Stores R A ∧ R.cusp = fins cu ∧ cu.length = A.orbitals.length ∧ R.occ.sum = 7 ∧
    A.atomicDensity (ND.vec (fins [0])) "total" = .ok (fins [t 0]) ∧ HasDerivAt t D 0 ∧ D < 0 := by
  have hm : Data.anion_c ∈ Data.bundled := by simp [Data.bundled, Data.part8]
  have hz : HasZ ("C".toList.map Char.toLower) Data.anion_c.z := ⟨by decide +kernel, by decide +kernel⟩
  let FS : Str → Option (List Str) :=
    fun p => if p = "/data/anion/c.an".toList then some Data.anion_c.lines else none
  have hf : FS (Data.anion_c.charge.path ("C".toList.map Char.toLower)) = some Data.anion_c.lines := by
    simp only [FS]
    rw [if_pos (by decide +kernel)]
  obtain ⟨R, h1, -, h3⟩ := C103_cusp Data.anion_c hm (fun _ => true) (fun s => s.map Char.toLower) _ reads_example
    FS "C".toList rfl hz hf
  obtain ⟨R', h1', h2', ⟨A, hA⟩, -⟩ := C89_bundled Data.anion_c hm (fun _ => true) (fun s => s.map Char.toLower) _
    reads_example FS "C".toList rfl hz hf
  obtain ⟨R'', h1'', h2''⟩ := C103_kato Data.anion_c hm (fun _ => true) (fun s => s.map Char.toLower) _
    reads_example FS "C".toList rfl hz hf
  have e1 : R' = R := Except.ok.inj (Option.some.inj (h1'.symm.trans h1))
  have e2 : R'' = R := Except.ok.inj (Option.some.inj (h1''.symm.trans h1))
  subst e1 e2
  obtain ⟨cu, hc, h⟩ := h3 fun h => absurd h.1 (by decide)
  obtain ⟨phi, -, h5⟩ := h A hA
  obtain ⟨t, D, t1, t2, t3, t4⟩ := h2'' A hA
  refine ⟨R'', A, cu, t, D, h1, hA, hc, h5.length_eq.symm, h2', t1 [0], t2, ?_⟩
  have e : ((Data.anion_c.z : ℕ) : ℝ) = 6 := by
    have : Data.anion_c.z = 6 := rfl
    exact_mod_cast this
  rw [e] at t4
  by_contra hD
  have : D / (-2 * 6 * t 0) ≤ 0 := div_nonpos_of_nonneg_of_nonpos (not_lt.mp hD) (by linarith)
  generalize D / (-2 * 6 * t 0) = y at t4 this
  have h6 := (abs_le.mp t4).1
  norm_num at h6
  linarith

end
end BFit
