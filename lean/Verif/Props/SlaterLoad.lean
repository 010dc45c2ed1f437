import Verif.Props.SlaterTable
import Verif.Props.SlaterFile
import Verif.Props.SlaterIntegral

/-! Property C75: from a Slater file to the density.  Property C74: cations other than caesium are read. -/

namespace BFit

open Classical MeasureTheory Set Real

noncomputable section

/-- The attributes of a `SlaterAtoms` object (density.py:89-101) hold the dictionary `R`: a subshell is the
second character of a label, exponents and numbers are looked up by it, coefficients by the label. -/
structure Stores (R : RawAtom) (A : SlaterAtom) : Prop where
  orbitals : R.orbitals = A.orbitals.map Orb.label
  valid : ∀ o ∈ A.orbitals, o.valid
  exps : ∀ s : Sub, A.exps s = R.exps [s.letter]
  nums : ∀ s : Sub, (A.nums s).map (fun l => l.map fun n : ℕ => (n : ℤ)) = R.nums [s.letter]
  coeff : ∀ o ∈ A.orbitals, A.coeff o = R.coeff o.label
  occ : A.occ = R.occ.map fun k : ℤ => XR.fin (k : ℝ)
  energies : A.energies = R.energies

/-- Finite data: positive exponents and numbers, finite coefficients, one energy for each orbital. -/
def TBlock.finite (b : TBlock) : Prop :=
  (∀ r ∈ b.rows, 1 ≤ r.n ∧ (∃ z : ℝ, 0 < z ∧ r.z = .fin z) ∧ ∃ cs : List ℝ, r.cs = fins cs) ∧
    (∃ es : List ℝ, b.energies = fins es) ∧ b.energies.length = b.count

/-- The real number in a float. -/
def reOf : XR → ℝ
  | .fin x => x
  | _ => 0

/-- The Slater functions of a subshell in the file. -/
def SFile.basisOf (f : SFile) (s : Sub) : List (ℝ × ℕ) :=
  f.blocks.flatMap fun b => if b.sub = s then b.rows.map fun r => (reOf r.z, r.n) else []

/-- The coefficients of an orbital in the file. -/
def SFile.coeffOf (f : SFile) (o : Orb) : List ℝ :=
  f.blocks.flatMap fun b => if b.sub = o.sub then
    b.rows.map fun r => reOf (r.cs.getD (o.n - o.sub.l - 1) 0) else []

theorem flatMap_unique {α : Type} (bs : List TBlock) (hnd : (bs.map TBlock.sub).Nodup) (g : TBlock → List α)
    (b : TBlock) (hb : b ∈ bs) : (bs.flatMap fun b' => if b'.sub = b.sub then g b' else []) = g b := by
  induction bs with
  | nil => simp at hb
  | cons a bs ih =>
    rw [List.map_cons, List.nodup_cons] at hnd
    rw [List.flatMap_cons]
    rcases List.mem_cons.mp hb with rfl | hb
    · rw [if_pos rfl]
      have : (bs.flatMap fun b' => if b'.sub = b.sub then g b' else []) = [] := by
        rw [List.flatMap_eq_nil_iff]
        intro x hx
        rw [if_neg]
        intro e
        exact hnd.1 (e ▸ List.mem_map.mpr ⟨x, hx, rfl⟩)
      rw [this, List.append_nil]
    · have hne : a.sub ≠ b.sub := fun e => hnd.1 (e ▸ List.mem_map.mpr ⟨b, hb, rfl⟩)
      rw [if_neg hne, List.nil_append]
      exact ih hnd.2 hb

theorem map_cast_inj (l l' : List ℕ) (h : l.map (fun n : ℕ => (n : ℤ)) = l'.map fun n : ℕ => (n : ℤ)) : l = l' :=
  List.map_injective_iff.mpr (fun _ _ h => Int.ofNat_inj.mp h) h

/-- The orbitals of a `SlaterAtoms` object are those of the tables. -/
theorem stores_orbs {f : SFile} {A : SlaterAtom} (hv : ∀ o ∈ f.orbs, o.valid) (hv' : ∀ o ∈ A.orbitals, o.valid)
    (h : f.orbs.map Orb.label = A.orbitals.map Orb.label) : A.orbitals = f.orbs := by
  generalize A.orbitals = as at *
  generalize f.orbs = os at *
  induction os generalizing as with
  | nil => simpa using h.symm
  | cons o os ih =>
    cases as with
    | nil => simp at h
    | cons a as =>
      rw [List.map_cons, List.map_cons, List.cons.injEq] at h
      rw [Orb.label_inj (hv o (by simp)) (hv' a (by simp)) h.1,
        ih as (fun x hx => hv' x (by simp [hx])) (fun x hx => hv x (by simp [hx])) h.2]

theorem flatMap_fins {bs : List TBlock} (h : ∀ b ∈ bs, ∃ es : List ℝ, b.energies = fins es) :
    ∃ es : List ℝ, bs.flatMap TBlock.energies = fins es := by
  induction bs with
  | nil => exact ⟨[], rfl⟩
  | cons b bs ih =>
    obtain ⟨e1, h1⟩ := h b (by simp)
    obtain ⟨e2, h2⟩ := ih (fun b' hb' => h b' (by simp [hb']))
    exact ⟨e1 ++ e2, by rw [List.flatMap_cons, h1, h2]; simp [fins]⟩

theorem flatMap_length {bs : List TBlock} (h : ∀ b ∈ bs, b.energies.length = b.count) :
    (bs.flatMap TBlock.energies).length = (bs.flatMap TBlock.orbs).length := by
  induction bs with
  | nil => rfl
  | cons b bs ih =>
    rw [List.flatMap_cons, List.flatMap_cons, List.length_append, List.length_append,
      ih (fun b' hb' => h b' (by simp [hb'])), h b (by simp)]
    simp [TBlock.orbs]

/-- The attributes of the object satisfy what the theorems about densities assume. -/
theorem loaded_isSlater {heavy : Bool} {f : SFile} (hf : f.wf) (hwf : ∀ b ∈ f.blocks, b.wf)
    (hfin : ∀ b ∈ f.blocks, b.finite) {R : RawAtom} (hR : Reads heavy f R) {A : SlaterAtom}
    (hA : Stores R A) :
    A.orbitals = f.orbs ∧
    ∃ en : List ℝ, IsSlater A f.basisOf f.coeffOf (f.orbs.map fun o => (occSpec f.config o : ℝ)) en := by
  have hv : ∀ o ∈ f.orbs, o.valid := by
    intro o ho
    obtain ⟨b, hb, hob⟩ := List.mem_flatMap.mp ho
    exact block_orb_valid (hwf b hb) hob
  have horb : A.orbitals = f.orbs := stores_orbs hv hA.valid (by rw [← hR.orbitals, hA.orbitals])
  obtain ⟨en, hen⟩ := flatMap_fins (fun b hb => (hfin b hb).2.1)
  have hb : ∀ o ∈ A.orbitals, ∃ b ∈ f.blocks, ∃ i < b.count, o = ⟨b.sub.l + 1 + i, b.sub⟩ := by
    intro o ho
    rw [horb] at ho
    obtain ⟨b, hb, hob⟩ := List.mem_flatMap.mp ho
    obtain ⟨i, hi, rfl⟩ := List.mem_map.mp hob
    exact ⟨b, hb, i, List.mem_range.mp hi, rfl⟩
  have hbas : ∀ b ∈ f.blocks, f.basisOf b.sub = b.rows.map fun r => (reOf r.z, r.n) := fun b hb =>
    flatMap_unique f.blocks hf.subs (fun b : TBlock => b.rows.map fun r : TRow => (reOf r.z, r.n)) b hb
  have hz : ∀ b ∈ f.blocks, b.rows.map TRow.z = fins ((f.basisOf b.sub).map Prod.fst) := by
    intro b hb
    rw [hbas b hb, fins, List.map_map, List.map_map]
    apply List.map_congr_left
    intro r hr
    obtain ⟨z, -, e⟩ := ((hfin b hb).1 r hr).2.1
    simp [e, reOf]
  have hcf : ∀ b ∈ f.blocks, ∀ i, f.coeffOf ⟨b.sub.l + 1 + i, b.sub⟩ =
      b.rows.map fun r => reOf (r.cs.getD i 0) := by
    intro b hb i
    have := flatMap_unique f.blocks hf.subs (fun b' => b'.rows.map fun r => reOf (r.cs.getD
      (b.sub.l + 1 + i - b.sub.l - 1) 0)) b hb
    unfold SFile.coeffOf
    rw [this]
    congr 1
    funext r
    rw [show b.sub.l + 1 + i - b.sub.l - 1 = i by omega]
  refine ⟨horb, en, ?_⟩
  constructor
  · intro o ho
    obtain ⟨b, hbm, i, hi, rfl⟩ := hb o ho
    rw [hA.exps, hR.exps b hbm, hz b hbm]
  · intro o ho
    obtain ⟨b, hbm, i, hi, rfl⟩ := hb o ho
    have h := hA.nums b.sub
    rw [hR.nums b hbm] at h
    simp only
    cases hn : A.nums b.sub with
    | none => rw [hn] at h; simp at h
    | some l =>
      rw [hn, Option.map_some, Option.some.injEq] at h
      rw [hbas b hbm, List.map_map]
      congr 1
      apply map_cast_inj
      rw [h, List.map_map]
      rfl
  · intro o ho
    rw [hA.coeff o ho]
    obtain ⟨b, hbm, i, hi, rfl⟩ := hb o ho
    rw [hR.coeff b hbm i hi, hcf b hbm i, fins, List.map_map]
    congr 1
    apply List.map_congr_left
    intro r hr
    obtain ⟨cs, e⟩ := ((hfin b hbm).1 r hr).2.2
    have hlen := ((hwf b hbm).2 r hr).2
    have hi' : i < cs.length := by
      rw [e] at hlen
      simp only [fins, List.length_map] at hlen
      omega
    simp [e, fins, hi', reOf]
  · intro o ho
    obtain ⟨b, hbm, i, hi, rfl⟩ := hb o ho
    rw [hcf b hbm i, hbas b hbm]
    simp
  · intro o ho x hx
    obtain ⟨b, hbm, i, hi, rfl⟩ := hb o ho
    rw [hbas b hbm] at hx
    obtain ⟨r, hr, rfl⟩ := List.mem_map.mp hx
    obtain ⟨h1, ⟨z, hz0, e⟩, -⟩ := (hfin b hbm).1 r hr
    exact ⟨by simpa [e, reOf] using hz0, h1⟩
  · rw [hA.occ, hR.occ]
    unfold fins
    rw [List.map_map, List.map_map]
    apply List.map_congr_left
    intro o _
    simp
  · rw [horb]
    simp
  · intro x hx
    obtain ⟨o, -, rfl⟩ := List.mem_map.mp hx
    exact Nat.cast_nonneg _
  · rw [hA.energies, hR.energies, hen]
  · have := flatMap_length (fun b hb => (hfin b hb).2.2)
    rw [hen] at this
    rw [horb]
    unfold SFile.orbs
    rw [← this]
    simp [fins]

theorem wsum_map (os : List Orb) (g h : Orb → ℝ) :
    wsum (os.map g) (os.map h) = (os.map fun o => h o * g o).sum := by
  induction os with
  | nil => rfl
  | cons o os ih =>
    rw [List.map_cons, List.map_cons, List.map_cons, List.sum_cons, ← ih]
    simp only [wsum, List.zipWith_cons_cons, List.sum_cons]
    ring

theorem orbs_nodup {bs : List TBlock} (hnd : (bs.map TBlock.sub).Nodup) : (bs.flatMap TBlock.orbs).Nodup := by
  have hone : ∀ b : TBlock, b.orbs.Nodup := by
    intro b
    unfold TBlock.orbs
    refine List.Nodup.map ?_ List.nodup_range
    intro i j e
    have := (Orb.mk.inj e).1
    omega
  induction bs with
  | nil => simp
  | cons b bs ih =>
    rw [List.map_cons, List.nodup_cons] at hnd
    rw [List.flatMap_cons, List.nodup_append]
    refine ⟨hone b, ih hnd.2, ?_⟩
    intro o ho o' ho' e
    subst e
    obtain ⟨i, -, rfl⟩ := List.mem_map.mp ho
    obtain ⟨b', hb', ho'⟩ := List.mem_flatMap.mp ho'
    obtain ⟨j, -, e⟩ := List.mem_map.mp ho'
    have e' := (Orb.mk.inj e).2
    exact hnd.1 (e' ▸ List.mem_map.mpr ⟨b', hb', rfl⟩)

/-- If the tables hold all occupied orbitals, they hold all electrons of the configuration. -/
theorem electrons_all {f : SFile} (hf : f.wf) (hwf : ∀ b ∈ f.blocks, b.wf)
    (hall : ∀ o : Orb, o.valid → occSpec f.config o ≠ 0 → o ∈ f.orbs) :
    (f.orbs.map (occSpec f.config)).sum = (allOrbs.map (occSpec f.config)).sum := by
  have hp : f.orbs.Perm (allOrbs.filter fun o => occSpec f.config o ≠ 0) := by
    have hnd : f.orbs.Nodup := orbs_nodup hf.subs
    rw [List.perm_ext_iff_of_nodup hnd (allOrbs_nodup.filter _)]
    intro o
    rw [List.mem_filter, mem_allOrbs]
    constructor
    · intro ho
      obtain ⟨b, hb, hob⟩ := List.mem_flatMap.mp ho
      exact ⟨block_orb_valid (hwf b hb) hob, by simpa using hf.occ o ho⟩
    · intro ho
      exact hall o ho.1 (by simpa using ho.2)
  rw [(hp.map _).sum_eq]
  generalize allOrbs = os
  induction os with
  | nil => rfl
  | cons o os ih =>
    by_cases h : occSpec f.config o = 0
    · rw [List.filter_cons_of_neg (by simpa using h), ih, List.map_cons, List.sum_cons, h, zero_add]
    · rw [List.filter_cons_of_pos (by simpa using h), List.map_cons, List.map_cons, List.sum_cons,
        List.sum_cons, ih]

/-- There is an object with these attributes. -/
theorem stores_exists {heavy : Bool} {f : SFile} (hwf : ∀ b ∈ f.blocks, b.wf) {R : RawAtom}
    (hR : Reads heavy f R) : ∃ A, Stores R A := by
  refine ⟨⟨f.orbs, fun s => R.exps [s.letter], fun s => (R.nums [s.letter]).map fun l => l.map Int.toNat,
    fun o => R.coeff o.label, R.occ.map fun k : ℤ => XR.fin (k : ℝ), R.energies⟩, ?_⟩
  refine ⟨hR.orbitals, ?_, fun _ => rfl, ?_, fun _ _ => rfl, rfl, rfl⟩
  · intro o ho
    obtain ⟨b, hb, hob⟩ := List.mem_flatMap.mp ho
    exact block_orb_valid (hwf b hb) hob
  · intro s
    by_cases hs : ∀ b ∈ f.blocks, [s.letter] ≠ [b.sub.letter]
    · simp [(hR.no_exps _ hs).2]
    · push Not at hs
      obtain ⟨b, hb, e⟩ := hs
      simp only [e, hR.nums b hb, Option.map_some, List.map_map]
      congr 1

/-- From a file in the documented format to the density: the file is read, and the density of the atom is
`Σ n_i |R_i|² / (4π)` with the occupations of the configuration and the exponents, numbers and
coefficients of the tables.  If the orbitals are normalised and the tables hold all occupied orbitals, the
density integrates to the number of electrons of the configuration. -/
theorem C75_density (heavy : Bool) (tf : Str → Py XR) (f : SFile) (hf : f.wf)
    (hfin : ∀ b ∈ f.blocks, b.finite) (lines : List Str) (h : FileText heavy tf f lines) :
    ∃ R, parseSlater heavy tf lines = some (.ok R) ∧ (∃ A, Stores R A) ∧ ∀ A, Stores R A →
      (∀ x : List ℝ, A.atomicDensity (ND.vec (fins x)) "total" = .ok (fins (x.map fun r =>
        (f.orbs.map fun o => (occSpec f.config o : ℝ) * orbR (f.basisOf o.sub) (f.coeffOf o) r ^ 2).sum /
          (4 * π)))) ∧
      ((∀ o ∈ f.orbs, ∫ r in Ioi (0 : ℝ), r ^ 2 * orbR (f.basisOf o.sub) (f.coeffOf o) r ^ 2 = 1) →
        (∀ o : Orb, o.valid → occSpec f.config o ≠ 0 → o ∈ f.orbs) →
        ∫ p : EuclideanSpace ℝ (Fin 3), (f.orbs.map fun o => (occSpec f.config o : ℝ) *
          orbR (f.basisOf o.sub) (f.coeffOf o) ‖p‖ ^ 2).sum / (4 * π) =
            ((allOrbs.map (occSpec f.config)).sum : ℕ)) := by
  obtain ⟨R, h1, h2⟩ := C71_file heavy tf f hf lines h
  have hwf : ∀ b ∈ f.blocks, b.wf := by
    obtain ⟨l0, name, w, ws, bl, ex, el, kl, bl', ti, tabs, -, -, -, -, -, -, -, -, -, -, h10⟩ := h
    exact tables_wf h10
  refine ⟨R, h1, stores_exists hwf h2, fun A hA => ?_⟩
  obtain ⟨horb, en, hs⟩ := loaded_isSlater hf hwf hfin h2 hA
  have hd : ∀ r, densR A.orbitals f.basisOf f.coeffOf (f.orbs.map fun o => (occSpec f.config o : ℝ)) r =
      (f.orbs.map fun o => (occSpec f.config o : ℝ) * orbR (f.basisOf o.sub) (f.coeffOf o) r ^ 2).sum /
          (4 * π) := by
    intro r
    unfold densR
    rw [horb, wsum_map]
  refine ⟨fun x => ?_, fun hn hall => ?_⟩
  · rw [atomicDensity_total hs x]
    congr 3
    funext r
    exact hd r
  · obtain ⟨t, g1, -, g2, g3⟩ := C67_electrons hs
    have ht : t = fun r => (f.orbs.map fun o => (occSpec f.config o : ℝ) *
        orbR (f.basisOf o.sub) (f.coeffOf o) r ^ 2).sum / (4 * π) := by
      funext r
      have e := (g1 [r]).symm.trans (atomicDensity_total hs [r])
      simp only [fins, List.map_cons, List.map_nil, Except.ok.injEq, List.cons.injEq, XR.fin.injEq,
        and_true] at e
      rw [e, hd]
    have := (g3 (fun o ho => by
      rw [← g2 o ho]
      exact hn o (horb ▸ ho))).2
    rw [ht] at this
    rw [this, ← electrons_all hf hwf hall, Nat.cast_list_sum, List.map_map]
    rfl

/-! ### Cations -/

/-- Every listed cation but caesium is read from any file in the documented format.  Missing: caesium, whose
cation cannot be read (`C74_caesium`). -/
theorem C74_cations_partial (isAlpha : Str → Bool) (low : Str → Str) (tf : Str → Py XR)
    (fs : Str → Option (List Str)) (s : Str) (ha : isAlpha s = true) (z : ℕ) (hz : HasZ (low s) z)
    (hc : hasCation z) (hcs : z ≠ 55) (f : SFile) (hf : f.wf) (lines : List Str)
    (h : FileText false tf f lines)
    (hfs : fs ("/data/cation/".toList ++ low s ++ ".cat".toList) = some lines) :
    ∃ R, slaterInit isAlpha low tf fs (.str s) false true = some (.ok R) ∧ Reads false f R := by
  obtain ⟨R, h1, h2⟩ := C71_file false tf f hf lines h
  refine ⟨R, ?_, h2⟩
  rw [((C70_cation isAlpha low tf fs s ha).1 z hz hc).2 lines hfs, decide_eq_false hcs, h1]

/-! ### Example: helium -/

/-- The lines of `data/neutral/he.slater`. -/
def heLines : List Str :=
  ["      HELIUM   1S(2), 1S                                                              \n",
    "   E =    -2.861679996\n",
    "   T =     2.861679997     V =    -5.723359992     V/T =    -2.000000000\n",
    "  ORBITAL ENERGIES AND EXPANSION COEFFICIENTS\n",
    "        S                    1S \n",
    "  BASIS/ORB.ENERGY       -0.9179556\n",
    "              CUSP        1.0000525\n",
    "  2S        6.437494      0.0008103\n",
    "  1S        3.384356      0.0798826\n",
    "  1S        2.177906      0.1801610\n",
    "  1S        1.455077      0.7407925\n",
    "  2S        1.354958      0.0272015\n"].map String.toList

/-- Its contents, for a `float` with the values `v`. -/
def heFile (v : String → ℝ) : SFile where
  core := .all
  items := [.orb ⟨1, .S⟩ 2]
  energy := .fin (v "    -2.861679996\n")
  kinetic := .fin (v " 2.861679997")
  potential := .fin (v "-5.723359992")
  blocks := [{
    sub := .S
    count := 1
    energies := [.fin (v "-0.9179556")]
    cusps := [.fin (v "1.0000525")]
    rows := [⟨2, .fin (v "6.437494"), [.fin (v "0.0008103")]⟩, ⟨1, .fin (v "3.384356"), [.fin (v "0.0798826")]⟩,
      ⟨1, .fin (v "2.177906"), [.fin (v "0.1801610")]⟩, ⟨1, .fin (v "1.455077"), [.fin (v "0.7407925")]⟩,
      ⟨2, .fin (v "1.354958"), [.fin (v "0.0272015")]⟩] }]

example (v : String → ℝ) (hv : ∀ w ∈ ["6.437494", "3.384356", "2.177906", "1.455077", "1.354958"], 0 < v w) :
    (heFile v).wf ∧ (∀ b ∈ (heFile v).blocks, b.finite) ∧
      FileText false (fun w => .ok (.fin (v (String.ofList w)))) (heFile v) heLines := by
  have hw : WfConfig (heFile v).config := by
    refine ⟨?_, by simp [heFile, SFile.config, Core.items, CfgItem.orb?]⟩
    simp [heFile, SFile.config, Core.items, CfgItem.wf, Orb.valid, Sub.l]
  refine ⟨⟨hw, by simp [heFile], by simp [heFile], by simp [heFile], ?_⟩, ?_, ?_⟩
  · intro o ho
    have : o = ⟨1, .S⟩ := by simpa [heFile, SFile.orbs, TBlock.orbs, Sub.l] using ho
    rw [this, occSpec_listed hw (k := 2) (by simp [heFile, SFile.config])]
    decide
  · intro b hb
    have hb' : b = (heFile v).blocks.headD b := by simpa [heFile] using hb
    rw [hb']
    simp only [heFile, List.headD_cons, TBlock.finite, List.mem_cons, List.not_mem_nil, or_false]
    refine ⟨?_, ⟨[v "-0.9179556"], rfl⟩, rfl⟩
    rintro r (rfl | rfl | rfl | rfl | rfl)
    all_goals exact ⟨by norm_num, ⟨_, hv _ (by simp), rfl⟩, ⟨[_], rfl⟩⟩
  · refine ⟨heLines[0], "HELIUM".toList, "1S(2),".toList, ["1S".toList], [], [], heLines[1], heLines[2], [],
      [heLines[3]], heLines.drop 4, rfl, by decide +kernel,
      show _ = cfgText [.orb ⟨1, .S⟩ 2] by decide +kernel, by simp [heFile], by simp,
      by simp, ?_, ?_, by simp, ?_, ?_⟩
    · exact ⟨"   ".toList, " ".toList, "    -2.861679996\n".toList, by decide +kernel, by decide +kernel,
        by decide +kernel, by decide +kernel, rfl⟩
    · refine ⟨"   T =    ".toList, " 2.861679997".toList, "     V =    ".toList, "-5.723359992".toList,
        "     V/T =    ".toList, "-2.000000000".toList, "\n".toList, by decide +kernel, ?_, ?_, ?_, ?_, ?_, ?_, ?_,
        rfl, rfl⟩
      · unfold NoDigits; decide +kernel
      · unfold NoDigits; decide +kernel
      · unfold NoDigits; decide +kernel
      · unfold NoDigits; decide +kernel
      · exact ⟨' ', "2".toList, "861679997".toList, by decide +kernel, by decide, by decide, by decide,
          by decide +kernel, by decide +kernel⟩
      · exact ⟨'-', "5".toList, "723359992".toList, by decide +kernel, by decide, by decide, by decide,
          by decide +kernel, by decide +kernel⟩
      · exact ⟨'-', "2".toList, "000000000".toList, by decide +kernel, by decide, by decide, by decide,
          by decide +kernel, by decide +kernel⟩
    · intro l hl
      rw [List.mem_singleton] at hl
      subst hl
      refine ⟨by decide +kernel, ?_⟩
      rw [← isHeader_iff]
      decide +kernel
    · have e : heLines.drop 4 = heLines.drop 4 ++ [] := (List.append_nil _).symm
      rw [e]
      refine .cons ⟨show 0 + 1 ≤ 7 by decide, ?_⟩ ?_ .eof
      · simp only [List.mem_cons, List.not_mem_nil, or_false]
        rintro r (rfl | rfl | rfl | rfl | rfl) <;> exact ⟨by norm_num, rfl⟩
      · refine ⟨heLines[4], heLines[5], [heLines[6]], heLines.drop 7, by decide +kernel, ⟨?_, ?_⟩, ?_, ?_, ?_⟩
        · change Words _ [['S'], "1S".toList]
          decide +kernel
        · rw [← isHeader_iff]
          decide +kernel
        · exact ⟨"BASIS/ORB.ENERGY".toList, ["-0.9179556".toList], by decide +kernel, rfl⟩
        · simp only [Bool.false_eq_true, if_false]
          exact ⟨_, rfl, "CUSP".toList, ["1.0000525".toList], by decide +kernel, rfl⟩
        · refine .cons ?_ (.cons ?_ (.cons ?_ (.cons ?_ (.cons ?_ .nil))))
          · exact ⟨"6.437494".toList, ["0.0008103".toList],
              show Words _ ["2S".toList, "6.437494".toList, "0.0008103".toList] by decide +kernel, rfl, rfl⟩
          · exact ⟨"3.384356".toList, ["0.0798826".toList],
              show Words _ ["1S".toList, "3.384356".toList, "0.0798826".toList] by decide +kernel, rfl, rfl⟩
          · exact ⟨"2.177906".toList, ["0.1801610".toList],
              show Words _ ["1S".toList, "2.177906".toList, "0.1801610".toList] by decide +kernel, rfl, rfl⟩
          · exact ⟨"1.455077".toList, ["0.7407925".toList],
              show Words _ ["1S".toList, "1.455077".toList, "0.7407925".toList] by decide +kernel, rfl, rfl⟩
          · exact ⟨"1.354958".toList, ["0.0272015".toList],
              show Words _ ["2S".toList, "1.354958".toList, "0.0272015".toList] by decide +kernel, rfl, rfl⟩

end
end BFit
