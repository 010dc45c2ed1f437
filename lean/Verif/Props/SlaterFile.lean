import Verif.Spec.Parse

/-! Properties C70 and C74: which file is opened for an element and a charge state. -/

namespace BFit

open Classical

noncomputable section

/-- The file at `path` is opened and read: an error if it does not exist, else its parsed contents. -/
def Opens (r : Option (Py RawAtom)) (tf : Str → Py XR) (fs : Str → Option (List Str)) (heavy : Bool)
    (path : Str) : Prop :=
  (fs path = none → r = some (raise .fileNotFoundError)) ∧
  ∀ lines, fs path = some lines → r = parseSlater heavy tf lines

theorem mem_drop_iff (e : Str) (k : ℕ) (l : List Str) :
    e ∈ l.drop k ↔ ∃ i, k ≤ i ∧ l[i]? = some e := by
  rw [List.mem_iff_getElem?]
  constructor
  · rintro ⟨i, hi⟩
    rw [List.getElem?_drop] at hi
    exact ⟨k + i, by omega, hi⟩
  · rintro ⟨i, hk, hi⟩
    refine ⟨i - k, ?_⟩
    rw [List.getElem?_drop, show k + (i - k) = i by omega]
    exact hi

theorem heavy_iff (e : Str) : e ∈ heavyAtoms ↔ ∃ z, HasZ e z ∧ isHeavyZ z := by
  rw [show heavyAtoms = symbols.drop 54 from rfl, mem_drop_iff]
  constructor
  · rintro ⟨i, h1, h2⟩
    refine ⟨i + 1, ⟨by omega, by simpa using h2⟩, ?_⟩
    unfold isHeavyZ
    omega
  · rintro ⟨z, ⟨h1, h2⟩, h3⟩
    unfold isHeavyZ at h3
    exact ⟨z - 1, by omega, h2⟩

/-- Elements of a list that are chosen by a property of their atomic number. -/
theorem chosen_iff (l : List Str) (p : ℕ → Prop) [DecidablePred p]
    (h : ∀ e ∈ l, ∃ i ∈ List.range symbols.length, symbols[i]? = some e ∧ p (i + 1))
    (h' : ∀ i ∈ List.range symbols.length, p (i + 1) → symbols.getD i [] ∈ l) (e : Str) :
    e ∈ l ↔ ∃ z, HasZ e z ∧ p z := by
  constructor
  · intro he
    obtain ⟨i, _, h1, h2⟩ := h e he
    exact ⟨i + 1, ⟨by omega, by simpa using h1⟩, h2⟩
  · rintro ⟨z, ⟨h1, h2⟩, h3⟩
    have hlt : z - 1 < symbols.length := (List.getElem?_eq_some_iff.mp h2).1
    have := h' (z - 1) (List.mem_range.mpr hlt) (by rwa [show z - 1 + 1 = z by omega])
    rwa [List.getD_eq_getElem?_getD, h2] at this

theorem anion_iff (e : Str) : e ∈ anionAtoms ↔ ∃ z, HasZ e z ∧ hasAnion z := by
  have : DecidablePred hasAnion := fun z => by unfold hasAnion; infer_instance
  apply chosen_iff
  · unfold hasAnion
    decide +kernel
  · unfold hasAnion
    decide +kernel

theorem cation_iff (e : Str) : e ∈ cationAtoms ↔ ∃ z, HasZ e z ∧ hasCation z := by
  have : DecidablePred hasCation := fun z => by unfold hasCation; infer_instance
  apply chosen_iff
  · unfold hasCation
    decide +kernel
  · unfold hasCation
    decide +kernel

/-- Neutral atoms: the file named by the element in small letters, read in the layout of the element. -/
theorem C70_neutral (isAlpha : Str → Bool) (low : Str → Str) (tf : Str → Py XR)
    (fs : Str → Option (List Str)) (s : Str) (ha : isAlpha s = true) (heavy : Bool)
    (hh : heavy = true ↔ ∃ z, HasZ (low s) z ∧ isHeavyZ z) :
    Opens (slaterInit isAlpha low tf fs (.str s) false false) tf fs heavy
      ("/data/neutral/".toList ++ low s ++ ".slater".toList) := by
  have e : slaterInit isAlpha low tf fs (.str s) false false = loadSlater low tf fs s false false := by
    simp [slaterInit, ha]
  have hd : decide (low s ∈ heavyAtoms) = heavy := by
    rw [Bool.eq_iff_iff, decide_eq_true_iff, hh, heavy_iff]
  unfold Opens
  rw [e]
  unfold loadSlater slaterPath
  simp only [Bool.false_eq_true, if_false, hd]
  exact ⟨fun h => by rw [h], fun lines h => by rw [h]⟩

/-- Anions: the file of the element, if it has one, else `ValueError` without opening any file. -/
theorem C70_anion (isAlpha : Str → Bool) (low : Str → Str) (tf : Str → Py XR)
    (fs : Str → Option (List Str)) (s : Str) (ha : isAlpha s = true) :
    ((∃ z, HasZ (low s) z ∧ hasAnion z) →
      Opens (slaterInit isAlpha low tf fs (.str s) true false) tf fs false
        ("/data/anion/".toList ++ low s ++ ".an".toList)) ∧
    ((¬ ∃ z, HasZ (low s) z ∧ hasAnion z) →
      slaterInit isAlpha low tf fs (.str s) true false = some (raise .valueError)) := by
  have e : slaterInit isAlpha low tf fs (.str s) true false = loadSlater low tf fs s true false := by
    simp [slaterInit, ha]
  rw [e, ← anion_iff]
  unfold Opens loadSlater slaterPath
  simp only [if_true]
  constructor
  · intro h
    have hd : decide (low s ∈ heavyAtoms) = false := by
      rw [decide_eq_false_iff_not]
      exact (by decide +kernel : ∀ x ∈ anionAtoms, x ∉ heavyAtoms) _ h
    simp only [if_pos h, hd]
    exact ⟨fun h => by rw [h], fun lines h => by rw [h]⟩
  · intro h
    simp only [if_neg h]
    rfl

/-- Cations: the file of the element, if it has one, else `ValueError` without opening any file.
Caesium is the only one that is read in the layout of the heavy elements. -/
theorem C70_cation (isAlpha : Str → Bool) (low : Str → Str) (tf : Str → Py XR)
    (fs : Str → Option (List Str)) (s : Str) (ha : isAlpha s = true) :
    (∀ z, HasZ (low s) z → hasCation z →
      Opens (slaterInit isAlpha low tf fs (.str s) false true) tf fs (decide (z = 55))
        ("/data/cation/".toList ++ low s ++ ".cat".toList)) ∧
    ((¬ ∃ z, HasZ (low s) z ∧ hasCation z) →
      slaterInit isAlpha low tf fs (.str s) false true = some (raise .valueError)) := by
  have e : slaterInit isAlpha low tf fs (.str s) false true = loadSlater low tf fs s false true := by
    simp [slaterInit, ha]
  rw [e]
  unfold Opens loadSlater slaterPath
  simp only [if_true, Bool.false_eq_true, if_false]
  constructor
  · intro z hz hc
    have h : low s ∈ cationAtoms := (cation_iff _).mpr ⟨z, hz, hc⟩
    have hd : decide (low s ∈ heavyAtoms) = decide (z = 55) := by
      rw [Bool.eq_iff_iff, decide_eq_true_iff, decide_eq_true_iff]
      have key : ∀ i ∈ List.range 55, 2 ≤ i → (symbols.getD i [] ∈ heavyAtoms ↔ i = 54) := by
        decide +kernel
      have hz1 := hz.1
      have := key (z - 1) (List.mem_range.mpr (by have := hc.2; omega)) (by have := hc.1; omega)
      rw [List.getD_eq_getElem?_getD, hz.2] at this
      rw [Option.getD_some] at this
      rw [this]
      have := hc.1
      omega
    simp only [if_pos h, hd]
    exact ⟨fun h => by rw [h], fun lines h => by rw [h]⟩
  · intro h
    rw [← cation_iff] at h
    simp only [if_neg h]
    rfl

/-- Spellings that differ in case give the same result. -/
theorem C70_case (isAlpha : Str → Bool) (low : Str → Str) (tf : Str → Py XR)
    (fs : Str → Option (List Str)) (s s' : Str) (anion cation : Bool) (h : low s = low s')
    (ha : isAlpha s = isAlpha s') :
    slaterInit isAlpha low tf fs (.str s) anion cation =
      slaterInit isAlpha low tf fs (.str s') anion cation := by
  unfold slaterInit loadSlater slaterPath
  simp only [h, ha]

/-- Arguments that are rejected: no string or not only letters, both charges. -/
theorem C70_rejects (isAlpha : Str → Bool) (low : Str → Str) (tf : Str → Py XR)
    (fs : Str → Option (List Str)) (anion cation : Bool) :
    slaterInit isAlpha low tf fs .other anion cation = some (raise .typeError) ∧
    (∀ s, isAlpha s = false →
      slaterInit isAlpha low tf fs (.str s) anion cation = some (raise .typeError)) ∧
    ∀ s, isAlpha s = true →
      slaterInit isAlpha low tf fs (.str s) true true = some (raise .valueError) := by
  refine ⟨rfl, fun s hs => ?_, fun s hs => ?_⟩
  · simp [slaterInit, hs]
  · simp [slaterInit, hs]

/-- The Slater file of `"Cl"` with its anion; helium has no anion, hydrogen no cation. -/
example : HasZ ("Cl".toList.map Char.toLower) 17 ∧ hasAnion 17 ∧ hasCation 17 ∧
    (¬ ∃ z, HasZ "he".toList z ∧ hasAnion z) ∧ ¬ ∃ z, HasZ "h".toList z ∧ hasCation z := by
  refine ⟨⟨by norm_num, by decide +kernel⟩, ⟨by norm_num, by decide⟩, ⟨by norm_num, by norm_num⟩, ?_, ?_⟩
  · rw [← anion_iff]
    decide +kernel
  · rw [← cation_iff]
    decide +kernel

/-! ### The cation of caesium -/

/-- The first line of `data/cation/cs.cat`. -/
def csCationLine : Str := "      CESIUM+   K(2)L(8)M(18)4S(2)4P(6)5S(2)4D(10)5P(6), 1S                           \n".toList

/-- The cation of caesium is listed and its file exists, yet it cannot be loaded: whatever follows the
first line, the configuration is taken for one with an abbreviated core and `ValueError` is raised. -/
theorem C74_caesium (isAlpha : Str → Bool) (low : Str → Str) (tf : Str → Py XR)
    (fs : Str → Option (List Str)) (s : Str) (ha : isAlpha s = true) (hs : low s = "cs".toList)
    (lines : List Str)
    (hf : fs "/data/cation/cs.cat".toList = some (csCationLine :: lines)) :
    hasCation 55 ∧ HasZ (low s) 55 ∧
      slaterInit isAlpha low tf fs (.str s) false true = some (raise .valueError) := by
  have hz : HasZ (low s) 55 := by
    rw [hs]
    exact ⟨by norm_num, by decide +kernel⟩
  have hc : hasCation 55 := ⟨by norm_num, by norm_num⟩
  refine ⟨hc, hz, ?_⟩
  have := ((C70_cation isAlpha low tf fs s ha).1 55 hz hc).2 (csCationLine :: lines) (by
    rw [hs]
    exact hf)
  rw [this]
  unfold parseSlater
  have hr : readConfig (decide (55 = 55)) ((csCationLine :: lines).headD []) = raise .valueError := by
    have h1 : pyGet (splitWs csCationLine) 1 =
        .ok "K(2)L(8)M(18)4S(2)4P(6)5S(2)4D(10)5P(6),".toList := by
      have h0 : splitWs csCationLine = ["CESIUM+".toList,
          "K(2)L(8)M(18)4S(2)4P(6)5S(2)4D(10)5P(6),".toList, "1S".toList] := by decide +kernel
      rw [h0]
      rfl
    unfold readConfig
    simp only [List.headD_cons, h1, decide_true, if_true]
    have h2 : heavyConfig ("K(2)L(8)M(18)4S(2)4P(6)5S(2)4D(10)5P(6),".toList.filter (· ≠ ',')) =
        raise .valueError := by
      have h3 : splitSecond "[XE]".toList ("K(2)L(8)M(18)4S(2)4P(6)5S(2)4D(10)5P(6),".toList.filter
          (· ≠ ',')) = none := by decide +kernel
      have h4 : splitSecond "[RN]".toList ("K(2)L(8)M(18)4S(2)4P(6)5S(2)4D(10)5P(6),".toList.filter
          (· ≠ ',')) = none := by decide +kernel
      unfold heavyConfig
      rw [h3, h4]
    exact h2
  rw [hr]
  rfl

end
end BFit
