import Verif.Data.All
import Verif.Lemmas.DataSound

/-! Properties C89 and C90: the data files that come with the package. -/

namespace BFit

open Real MeasureTheory Set Classical

noncomputable section

/-! ### Which files there are -/

/-- `Data.bundled` holds one file for each atom in the archive, except for the anion of silver and the cation
of caesium. -/
theorem C89_complete :
    (Data.bundled.map fun d => (d.z, d.charge)).Nodup ∧
    ∀ (z : ℕ) (c : Charge), (z, c) ∈ Data.bundled.map (fun d => (d.z, d.charge)) ↔
      match c with
      | .neutral => 1 ≤ z ∧ z ≤ 103
      | .anion => 1 ≤ z ∧ hasAnion z ∧ z ≠ 47
      | .cation => hasCation z ∧ z ≠ 55 := by
  have e : Data.bundled.map (fun d => (d.z, d.charge)) =
      ((List.range' 1 103).map fun z => (z, Charge.neutral)) ++
      (((List.range' 1 53).filter fun z => !([2, 4, 10, 12, 18, 20, 30, 36, 38, 47, 48].contains z)).map
        fun z => (z, Charge.anion)) ++
      ((List.range' 3 52).map fun z => (z, Charge.cation)) := by decide +kernel
  rw [e]
  refine ⟨by decide +kernel, fun z c => ?_⟩
  simp only [List.mem_append, List.mem_map, List.mem_range'_1, Prod.mk.injEq, List.mem_filter]
  cases c with
  | neutral =>
    simp only [reduceCtorEq, and_false, exists_false, or_false, and_true, exists_eq_right]
    omega
  | anion =>
    simp only [reduceCtorEq, and_false, exists_false, or_false, false_or, and_true, exists_eq_right, hasAnion,
      Bool.not_eq_true', List.contains_eq_mem, decide_eq_false_iff_not, List.mem_cons, List.not_mem_nil]
    omega
  | cation =>
    simp only [reduceCtorEq, and_false, exists_false, or_false, false_or, and_true, exists_eq_right, hasCation]
    omega

theorem bundled_anion {d : DataFile} (hd : d ∈ Data.bundled) (hc : d.charge = .anion) : hasAnion d.z := by
  have := (C89_complete.2 d.z d.charge).mp (List.mem_map.mpr ⟨d, hd, rfl⟩)
  rw [hc] at this
  exact this.2.1

theorem bundled_cation {d : DataFile} (hd : d ∈ Data.bundled) (hc : d.charge = .cation) :
    hasCation d.z ∧ d.z ≠ 55 := by
  have := (C89_complete.2 d.z d.charge).mp (List.mem_map.mpr ⟨d, hd, rfl⟩)
  rw [hc] at this
  exact this

/-! ### What they hold -/

/-- Every bundled file is read by `SlaterAtoms`; it holds the atom it is named after: the right number of
electrons; orbitals that are normalised up to `1e-5` and orthogonal up to `1e-6`; a density whose integral is
the number of electrons up to `1e-5` per electron; energies that add up and obey the virial theorem, with the
kinetic energy equal to the integral of the kinetic energy density up to a factor `1 ± 3e-7`. -/
theorem C89_bundled (d : DataFile) (hd : d ∈ Data.bundled) (isAlpha : Str → Bool) (low : Str → Str)
    (tf : Str → Py XR) (ht : ReadsDecimals tf) (fs : Str → Option (List Str)) (s : Str) (ha : isAlpha s = true)
    (hz : HasZ (low s) d.z) (hfs : fs (d.charge.path (low s)) = some d.lines) :
    ∃ R : RawAtom,
      slaterInit isAlpha low tf fs (.str s) (decide (d.charge = .anion)) (decide (d.charge = .cation)) =
        some (.ok R) ∧
      R.occ.sum = d.charge.electrons d.z ∧ (∃ A, Stores R A) ∧
      ∀ A, Stores R A →
        (∃ phi : Orb → ℝ → ℝ,
          (∀ x : List ℝ, A.phiMatrix (ND.vec (fins x)) false =
            .ok (x.map fun r => fins (A.orbitals.map fun o => phi o r))) ∧
          (∀ o ∈ A.orbitals, |(∫ r in Ioi (0 : ℝ), r ^ 2 * phi o r ^ 2) - 1| ≤ 1e-5) ∧
          ∀ o ∈ A.orbitals, ∀ o' ∈ A.orbitals, o ≠ o' → o.sub = o'.sub →
            |∫ r in Ioi (0 : ℝ), r ^ 2 * (phi o r * phi o' r)| ≤ 1e-6) ∧
        (∃ t : ℝ → ℝ,
          (∀ x : List ℝ, A.atomicDensity (ND.vec (fins x)) "total" = .ok (fins (x.map t))) ∧
          Integrable (fun p : EuclideanSpace ℝ (Fin 3) => t ‖p‖) ∧
          |(∫ p : EuclideanSpace ℝ (Fin 3), t ‖p‖) - d.charge.electrons d.z| ≤
            1e-5 * d.charge.electrons d.z) ∧
        ∃ E T V : ℝ, R.energy = .fin E ∧ R.kinetic = .fin T ∧ R.potential = .fin V ∧
          |E - (T + V)| ≤ 2e-9 ∧ |V + 2 * T| ≤ 2e-8 * T ∧
          ∃ k : ℝ → ℝ,
            (∀ x : List ℝ, (∀ r ∈ x, 1e-10 ≤ |r|) → A.kinetic (ND.vec (fins x)) = .ok (fins (x.map k))) ∧
            Integrable (fun p : EuclideanSpace ℝ (Fin 3) => k ‖p‖) ∧
            |(∫ p : EuclideanSpace ℝ (Fin 3), k ‖p‖) - T| ≤ 3e-7 * T := by
  obtain ⟨R, f, -, hG, hg, hl, hR, hi⟩ := ok_sound (Data.bundled_ok d hd) (bundled_anion hd) (bundled_cation hd)
    isAlpha low tf ht fs s ha hz hfs
  have hwf : ∀ b ∈ f.toS.blocks, b.wf := by
    intro b hb
    obtain ⟨b', hb', rfl⟩ := List.mem_map.mp hb
    exact (hg b' hb').wf
  obtain ⟨A, hA⟩ := stores_exists hwf hR
  refine ⟨R, hi, (good_loads hG hg hl hR hA).occ, ⟨A, hA⟩, fun A' hA' => ?_⟩
  have h := good_loads hG hg hl hR hA'
  exact ⟨h.orbs, h.dens, h.energy⟩

/-- The file of the cation of caesium is in another format: the constructor raises `ValueError`. -/
theorem C89_caesium (isAlpha : Str → Bool) (low : Str → Str) (tf : Str → Py XR) (fs : Str → Option (List Str))
    (s : Str) (ha : isAlpha s = true) (hs : low s = "cs".toList)
    (hf : fs (Charge.path .cation (low s)) = some Data.cation_cs.lines) :
    slaterInit isAlpha low tf fs (.str s) false true = some (raise .valueError) := by
  have e : Data.cation_cs.lines = csCationLine :: Data.cation_cs.lines.tail := by decide +kernel
  have hp : Charge.path .cation (low s) = "/data/cation/cs.cat".toList := by
    rw [hs]
    decide +kernel
  rw [e, hp] at hf
  exact (C74_caesium isAlpha low tf fs s ha hs _ hf).2.2

/-! ### The reference energy of the core and valence densities -/

/-- The valence density of a bundled atom refers to the energy of the orbital listed last.  This is the highest
orbital energy exactly for the atoms in `lastIsHighest`. -/
theorem C90_reference (d : DataFile) (hd : d ∈ Data.bundled) (isAlpha : Str → Bool) (low : Str → Str)
    (tf : Str → Py XR) (ht : ReadsDecimals tf) (fs : Str → Option (List Str)) (s : Str) (ha : isAlpha s = true)
    (hz : HasZ (low s) d.z) (hfs : fs (d.charge.path (low s)) = some d.lines) :
    ∃ R : RawAtom,
      slaterInit isAlpha low tf fs (.str s) (decide (d.charge = .anion)) (decide (d.charge = .cation)) =
        some (.ok R) ∧
      ∀ A, Stores R A → ∃ (basis : Sub → List (ℝ × ℕ)) (c : Orb → List ℝ) (occ en : List ℝ) (e : ℝ),
        A.energies = fins en ∧ e ∈ en ∧ ((∀ x ∈ en, x ≤ e) ↔ d.z ∈ lastIsHighest d.charge) ∧
        ∀ x : List ℝ,
          A.atomicDensity (ND.vec (fins x)) "valence" =
            .ok (fins (x.map (valenceDensSpec A.orbitals basis c occ en e))) ∧
          A.atomicDensity (ND.vec (fins x)) "core" =
            .ok (fins (x.map (coreDensSpec A.orbitals basis c occ en e))) := by
  obtain ⟨R, f, -, hG, hg, hl, hR, hi⟩ := ok_sound (Data.bundled_ok d hd) (bundled_anion hd) (bundled_cation hd)
    isAlpha low tf ht fs s ha hz hfs
  refine ⟨R, hi, fun A hA => ?_⟩
  have hwf : ∀ b ∈ f.toS.blocks, b.wf := by
    intro b hb
    obtain ⟨b', hb', rfl⟩ := List.mem_map.mp hb
    exact (hg b' hb').wf
  have hfin : ∀ b ∈ f.toS.blocks, b.finite := by
    intro b hb
    obtain ⟨b', hb', rfl⟩ := List.mem_map.mp hb
    exact (hg b' hb').finite
  obtain ⟨-, en, hs⟩ := loaded_isSlater hG.wf hwf hfin hR hA
  obtain ⟨en', e, h1, -, h3, h4⟩ := (good_loads hG hg hl hR hA).last
  have he : en = en' := by
    have := hs.en_eq.symm.trans h1
    exact List.map_injective_iff.mpr (fun a b hab => by simpa using hab) this
  subst he
  exact ⟨_, _, _, en, e, h1, List.mem_of_getLast? h3, h4, fun x => C65_uses_last hs e h3 x⟩

/-- For 142 of the 197 bundled atoms the reference is not the highest orbital energy. -/
theorem C90_count : Data.bundled.length = 197 ∧
    (Data.bundled.filter fun d => decide (d.z ∉ lastIsHighest d.charge)).length = 142 := by
  constructor
  · decide +kernel
  · have : ∀ l : List DataFile, (l.filter fun d => decide (d.z ∉ lastIsHighest d.charge)).length =
        ((l.map fun d => (d.z, d.charge)).filter fun p => !(lastIsHighest p.2).contains p.1).length := by
      intro l
      induction l with
      | nil => rfl
      | cons d l ih =>
        simp only [List.contains_eq_mem, decide_not] at ih ⊢
        by_cases h : d.z ∈ lastIsHighest d.charge <;> simp [h, ih]
    rw [this]
    decide +kernel

/-! ### Example -/

/-- Reader of decimal numbers. -/
def readDec (w : Str) : ℝ :=
  let w1 := w.dropWhile isSpace
  let neg := w1.head? == some '-'
  let w2 := if neg then w1.tail else w1
  let d := w2.takeWhile Char.isDigit
  let d' := ((w2.dropWhile Char.isDigit).tail).takeWhile Char.isDigit
  (if neg then -1 else 1) * (decDigits (d ++ d') : ℝ) / 10 ^ d'.length

theorem isSpace_not_digit {c : Char} (h : isSpace c = true) : c.isDigit = false := by
  by_contra hc
  rw [Bool.not_eq_false] at hc
  simp only [Char.isDigit, Bool.and_eq_true, decide_eq_true_eq, UInt32.le_iff_toNat_le] at hc
  unfold isSpace at h
  simp only [Bool.or_eq_true, Bool.and_eq_true, decide_eq_true_eq, Char.toNat] at h
  have h1 : 48 ≤ c.val.toNat := hc.1
  have h2 : c.val.toNat ≤ 57 := hc.2
  omega

theorem takeWhile_append_stop {p : Char → Bool} (a b : Str) (ha : ∀ c ∈ a, p c = true)
    (hb : ∀ c, b.head? = some c → p c = false) :
    (a ++ b).takeWhile p = a ∧ (a ++ b).dropWhile p = b := by
  induction a with
  | nil =>
    cases b with
    | nil => simp
    | cons c b => simp [hb c rfl]
  | cons c a ih =>
    have := ih fun c hc => ha c (by simp [hc])
    simp [ha c (by simp), this.1, this.2]

theorem readDec_eq {w : Str} {x : ℝ} (h : DecText w x) : readDec w = x := by
  obtain ⟨a, neg, d, d', b, rfl, ha, hb, hne, hd, hd', rfl⟩ := h
  replace ha := ha.space
  replace hb := hb.space
  have hdig : ∀ c : Char, c.isDigit = true → isSpace c = false ∧ c ≠ '-' := by
    intro c hc
    refine ⟨?_, ?_⟩
    · by_contra hs
      rw [Bool.not_eq_false] at hs
      rw [isSpace_not_digit hs] at hc
      exact absurd hc (by simp)
    · rintro rfl
      exact absurd hc (by decide)
  have e1 : (a ++ ((if neg then ['-'] else []) ++ (d ++ '.' :: (d' ++ b)))).dropWhile isSpace =
      (if neg then ['-'] else []) ++ (d ++ '.' :: (d' ++ b)) := by
    refine (takeWhile_append_stop a _ ha ?_).2
    intro c hc
    cases neg with
    | true =>
      simp at hc
      rw [← hc]
      decide
    | false =>
      cases d with
      | nil =>
        simp at hc
        rw [← hc]
        decide
      | cons c' d =>
        simp at hc
        rw [← hc]
        exact (hdig c' (hd c' (by simp))).1
  have e2 : (((if neg then ['-'] else []) ++ (d ++ '.' :: (d' ++ b))).head? == some '-') = neg := by
    cases neg with
    | true => simp
    | false =>
      cases d with
      | nil => simp
      | cons c' d => simpa using (hdig c' (hd c' (by simp))).2
  have e3 : (if neg then ((if neg then ['-'] else []) ++ (d ++ '.' :: (d' ++ b))).tail
      else (if neg then ['-'] else []) ++ (d ++ '.' :: (d' ++ b))) = d ++ '.' :: (d' ++ b) := by
    cases neg <;> simp
  obtain ⟨e4, e5⟩ := takeWhile_append_stop (p := Char.isDigit) d ('.' :: (d' ++ b)) hd (by
    intro c hc
    simp at hc
    rw [← hc]
    decide)
  obtain ⟨e6, -⟩ := takeWhile_append_stop (p := Char.isDigit) d' b hd' (by
    intro c hc
    exact isSpace_not_digit (hb c (List.mem_of_mem_head? hc)))
  unfold readDec
  simp only [e1, e2, e3, e4, e5, List.tail_cons, e6]

/-- A reader as in `C89_bundled`. -/
theorem reads_example : ReadsDecimals fun w => .ok (.fin (readDec w)) := by
  intro w x h
  simp only
  rw [readDec_eq h]

/-- The anion of carbon. -/
theorem bundled_example : ∃ R : RawAtom,
    slaterInit (fun _ => true) (fun s => s.map Char.toLower) (fun w => .ok (.fin (readDec w)))
      (fun p => if p = "/data/anion/c.an".toList then some Data.anion_c.lines else none) (.str "C".toList) true false =
      some (.ok R) ∧ R.occ.sum = 7 ∧ ∃ A, Stores R A := by
  obtain ⟨R, h1, h2, h3, -⟩ := C89_bundled Data.anion_c (by simp [Data.bundled, Data.part8]) (fun _ => true)
    (fun s => s.map Char.toLower) _ reads_example
    (fun p => if p = "/data/anion/c.an".toList then some Data.anion_c.lines else none) "C".toList rfl
    ⟨by decide +kernel, by decide +kernel⟩ (by rw [if_pos (by decide +kernel)])
  exact ⟨R, h1, h2, h3⟩

end
end BFit
