import Verif.Data.FitsAll
import Verif.Lemmas.FitsSound
import Verif.Props.UgbsData

/-! Properties C101 and C102: the results of fits that come with the package. -/

namespace BFit

open Real MeasureTheory Set Classical

noncomputable section

/-! ### The dictionaries -/

/-- The values in an entry. -/
def entryOf (e : JEntry) : FitEntry :=
  match e.scan with
  | some f => f.entry
  | none => ⟨0, 0, [], []⟩

theorem load_fits {jload : Str → Py (List (Str × FitEntry))} (hj : ReadsFits jload) {es : List JEntry}
    (h : ∀ e ∈ es, ∃ f, e.scan = some f) :
    jload (fitsText es) = .ok (es.map fun e => (e.sym, entryOf e)) := by
  refine hj es _ (forall₂_self_map fun e he => ⟨rfl, ?_⟩)
  obtain ⟨f, hf⟩ := h e he
  simp only [entryOf, hf]
  exact (scan_sound hf).1

theorem fitOf_mem {es : List JEntry} (hn : (es.map JEntry.sym).Nodup) {e : JEntry} (he : e ∈ es) :
    fitOf (es.map fun e => (e.sym, entryOf e)) e.sym = .ok (entryOf e) := by
  unfold fitOf
  cases hf : (es.map fun e => (e.sym, entryOf e)).reverse.find? fun p => p.1 == e.sym with
  | none =>
    rw [List.find?_eq_none] at hf
    have := hf (e.sym, entryOf e) (by
      rw [List.mem_reverse]
      exact List.mem_map.mpr ⟨e, he, rfl⟩)
    simp at this
  | some p =>
    have h1 := List.mem_of_find?_eq_some hf
    have h2 := List.find?_some hf
    rw [List.mem_reverse] at h1
    obtain ⟨e', he', rfl⟩ := List.mem_map.mp h1
    have : e' = e := List.inj_on_of_nodup_map hn he' he (beq_iff_eq.mp h2)
    rw [this]

theorem fitOf_none {es : List JEntry} {s : Str} (h : ∀ e ∈ es, e.sym ≠ s) :
    fitOf (es.map fun e => (e.sym, entryOf e)) s = raise .keyError := by
  unfold fitOf
  have : ((es.map fun e => (e.sym, entryOf e)).reverse.find? fun p => p.1 == s) = none := by
    rw [List.find?_eq_none]
    intro p hp
    rw [List.mem_reverse] at hp
    obtain ⟨e, he, rfl⟩ := List.mem_map.mp hp
    simpa using h e he
  rw [this]

theorem fits_z : Data.fits.map (fun p => p.1.z) = List.range' 1 54 := by decide +kernel

theorem fits_bundled : Data.fits.map (fun p => p.1) = Data.bundled.take 54 := rfl

theorem fits_fpi_sym : (Data.fits.map fun p => p.2.1).map JEntry.sym = symbols.take 54 := by decide +kernel

theorem fits_slsqp_sym : (Data.fits.map fun p => p.2.2).map JEntry.sym = symbols.take 54 := by decide +kernel

theorem ite_bool {b x y : Bool} (h : (if b = true then x else y) = true) :
    (b = false → y = true) ∧ (b = true → x = true) := by
  cases b <;> simpa using h

/-- What the check says about an element. -/
theorem fits_sound {p : DataFile × JEntry × JEntry} (hp : p ∈ Data.fits) :
    HasZ p.2.1.sym p.1.z ∧ HasZ p.2.2.sym p.1.z ∧
    ∃ s u f g, scanFile p.1.heavy p.1.lines = some s ∧ blocksM (s.core.items ++ s.items) s.blocks = some u ∧
      p.2.1.scan = some f ∧ p.2.2.scan = some g ∧ f.Good ∧ g.Good ∧
      f.sumOk p.1.z 400 = true ∧ f.momOk u 20 = true ∧ g.sumOk p.1.z 30000000 = true ∧
      (p.1.z ∉ slsqpBad → g.momOk u 3 = true) ∧ (p.1.z ∈ slsqpBad → g.momBad u = true) ∧ f.ns = g.ns ∧
      f.np = g.np := by
  have hz : 1 ≤ p.1.z := by
    have : p.1.z ∈ Data.fits.map (fun p => p.1.z) := List.mem_map.mpr ⟨p, hp, rfl⟩
    rw [fits_z, List.mem_range'_1] at this
    exact this.1
  have h := Data.fits_ok p hp
  unfold fitsOk at h
  rw [Bool.and_eq_true, Bool.and_eq_true, beq_iff_eq, beq_iff_eq] at h
  obtain ⟨⟨s1, s2⟩, h⟩ := h
  refine ⟨⟨hz, s1⟩, ⟨hz, s2⟩, ?_⟩
  cases hs : scanFile p.1.heavy p.1.lines with
  | none => rw [hs] at h; exact absurd h (by simp)
  | some s =>
    rw [hs] at h
    simp only at h
    cases hu : blocksM (s.core.items ++ s.items) s.blocks with
    | none => rw [hu] at h; exact absurd h (by simp)
    | some u =>
      rw [hu] at h
      simp only at h
      cases hf : p.2.1.scan with
      | none => rw [hf] at h; exact absurd h (by simp)
      | some f =>
        rw [hf] at h
        simp only at h
        cases hg : p.2.2.scan with
        | none => rw [hg] at h; exact absurd h (by simp)
        | some g =>
          rw [hg] at h
          simp only [Bool.and_eq_true] at h
          obtain ⟨⟨⟨⟨⟨h1, h2⟩, h3⟩, h4⟩, h5⟩, h6⟩ := h
          refine ⟨s, u, f, g, rfl, hu, rfl, rfl, (scan_sound hf).2, (scan_sound hg).2, h1, h2, h3, ?_, ?_,
            Nat.eq_of_beq_eq_true h4, Nat.eq_of_beq_eq_true h5⟩
          · intro hb
            exact (ite_bool h6).1 (Bool.eq_false_iff.mpr fun h => hb (List.contains_iff_mem.mp h))
          · intro hb
            exact (ite_bool h6).2 (List.contains_iff_mem.mpr hb)

theorem fits_mem {z : ℕ} (h1 : 1 ≤ z) (h2 : z ≤ 54) : ∃ p ∈ Data.fits, p.1.z = z := by
  have : z ∈ Data.fits.map (fun p => p.1.z) := by
    rw [fits_z, List.mem_range'_1]
    omega
  exact List.mem_map.mp this

theorem hasZ_sym {s s' : Str} {z : ℕ} (h : HasZ s z) (h' : HasZ s' z) : s = s' := by
  have := h.2.symm.trans h'.2
  simpa using this

/-! ### Models -/

/-- The model with the parameters in `v` is positive, and has integral `Q` and second moment `M`. -/
structure FitMoments (v : FitEntry) (Q M : ℝ) : Prop where
  out : ∃ F : ℝ → ℝ, (∀ rs : List ℝ, fitModel (fins rs) v = .ok (fins (rs.map F))) ∧ (∀ r, 0 < F r) ∧
    Integrable (fun x : EuclideanSpace ℝ (Fin 3) => F ‖x‖) ∧
    Integrable (fun x : EuclideanSpace ℝ (Fin 3) => ‖x‖ ^ 2 * F ‖x‖) ∧
    ∫ x : EuclideanSpace ℝ (Fin 3), F ‖x‖ = Q ∧
    ∫ x : EuclideanSpace ℝ (Fin 3), ‖x‖ ^ 2 * F ‖x‖ = M

theorem basisFn_abs (ns : ℕ) (norm : Bool) (k : ℕ) (e r : ℝ) : basisFn ns norm k e |r| = basisFn ns norm k e r := by
  unfold basisFn sBasis pBasis
  simp only [sq_abs]

theorem atomDensity_abs (ns np : ℕ) (norm : Bool) (c e : List ℝ) (r : ℝ) :
    atomDensity ns np norm c e |r| = atomDensity ns np norm c e r := by
  unfold atomDensity
  simp only [basisFn_abs]

theorem atomDensity_pos {ns np : ℕ} {c e : List ℝ} (hns : ns ≠ 0) (hc : c.length = ns + np)
    (hel : e.length = ns + np) (hc0 : ∀ x ∈ c, 0 < x) (he : ∀ a ∈ e, 0 < a) (r : ℝ) :
    0 < atomDensity ns np true c e r := by
  unfold atomDensity
  have hnn : ∀ k ∈ Finset.range (ns + np), 0 ≤ c.getD k 0 * basisFn ns true k (e.getD k 0) r := by
    intro k hk
    exact mul_nonneg (vec_of_mem hc hc0 k (Finset.mem_range.mp hk)).le
      (basisFn_nonneg _ _ _ _ _ fun _ => (vec_of_mem hel he k (Finset.mem_range.mp hk)).le)
  refine Finset.sum_pos' hnn ⟨0, Finset.mem_range.mpr (by omega), ?_⟩
  refine mul_pos (vec_of_mem hc hc0 0 (by omega)) ?_
  have ha : 0 < e.getD 0 0 := vec_of_mem hel he 0 (by omega)
  unfold basisFn sBasis
  rw [if_pos (by omega)]
  simp only [if_true]
  have := pi_pos
  positivity

theorem fitMoments_of {f : DFit} (hf : f.Good) :
    ∃ M : ℝ, FitMoments f.entry (f.cs.map pv).sum M ∧
      (f.mom : ℝ) ≤ 10 ^ 20 * M ∧ 10 ^ 20 * M ≤ f.mom + f.cs.length := by
  obtain ⟨M, ⟨G, g1, g2⟩, m1, m2⟩ := fit_moments hf
  have hc : (f.cs.map pv).length = f.ns + f.np := by rw [List.length_map, hf.lenC]
  have he : (f.es.map pv).length = f.ns + f.np := by rw [List.length_map, hf.lenE]
  have hc0 : ∀ x ∈ f.cs.map pv, 0 < x := by
    intro x hx
    obtain ⟨p, hp, rfl⟩ := List.mem_map.mp hx
    exact pv_pos (hf.posC p hp).1
  have he0 : ∀ x ∈ f.es.map pv, 0 < x := by
    intro x hx
    obtain ⟨p, hp, rfl⟩ := List.mem_map.mp hx
    exact pv_pos (hf.posE p hp)
  have hns := hf.some
  have hG : ∀ r, G |r| = atomDensity f.ns f.np true (f.cs.map pv) (f.es.map pv) r := by
    intro r
    obtain ⟨-, m, h1, h2, h3⟩ := C18_radii_1d [r] 0 f.ns f.np (by omega) true
    obtain ⟨o, ho⟩ := g1 m _ h2 h3 false
    have := evaluate_fins h2 _ _ hc he (fun _ a ha => (he0 a ha).le) false
    rw [h3, ho] at this
    have h := (Prod.mk.inj (Except.ok.inj this)).1
    simpa [fins, atomDensity_abs] using h
  refine ⟨M, ⟨⟨atomDensity f.ns f.np true (f.cs.map pv) (f.es.map pv), ?_, ?_, ?_⟩⟩, m1, m2⟩
  · intro rs
    obtain ⟨-, m, h1, h2, h3⟩ := C18_radii_1d rs 0 f.ns f.np (by omega) true
    have := evaluate_fins h2 _ _ hc he (fun _ a ha => (he0 a ha).le) false
    unfold fitModel DFit.entry
    rw [h1]
    simp only
    rw [this, h3]
    simp only [List.map_map, Function.comp_def, atomDensity_abs]
  · exact atomDensity_pos hns hc he hc0 he0
  · have hn : ∀ x : EuclideanSpace ℝ (Fin 3), G ‖x‖ =
        atomDensity f.ns f.np true (f.cs.map pv) (f.es.map pv) ‖x‖ := by
      intro x
      rw [← hG, abs_of_nonneg (norm_nonneg x)]
    have := g2 0
    simpa only [sub_zero, hn] using this

/-- The constructor of `SlaterAtoms` reads the neutral atom with the data `d`; the total density is integrable with
second moment `M₀`, and `P M₀` holds. -/
def SlaterMomentIs (d : DataFile) (P : ℝ → Prop) : Prop :=
  ∀ (isAlpha : Str → Bool) (low : Str → Str) (tf : Str → Py XR), ReadsDecimals tf →
    ∀ (fs : Str → Option (List Str)) (s : Str), isAlpha s = true → HasZ (low s) d.z →
    fs (Charge.path .neutral (low s)) = some d.lines →
    ∃ R : RawAtom, slaterInit isAlpha low tf fs (.str s) false false = some (.ok R) ∧ (∃ A, Stores R A) ∧
      ∀ A, Stores R A → ∃ t : ℝ → ℝ,
        (∀ x : List ℝ, A.atomicDensity (ND.vec (fins x)) "total" = .ok (fins (x.map t))) ∧
        Integrable (fun p : EuclideanSpace ℝ (Fin 3) => ‖p‖ ^ 2 * t ‖p‖) ∧
        P (∫ p : EuclideanSpace ℝ (Fin 3), ‖p‖ ^ 2 * t ‖p‖)

theorem slater_moment {d : DataFile} (hd : d ∈ Data.bundled) (hc : d.charge = .neutral) {s : DFile} {u : ℕ × ℕ}
    (hs : scanFile d.heavy d.lines = some s) (hu : blocksM (s.core.items ++ s.items) s.blocks = some u)
    {P : ℝ → Prop} (hP : ∀ M0, Enc (10 ^ 36) M0 u → P M0) : SlaterMomentIs d P := by
  intro isAlpha low tf ht fs e ha hz hfs
  obtain ⟨R, f, hsc, hG, hg, -, hR, hi⟩ := ok_sound (Data.bundled_ok d hd) (bundled_anion hd) (bundled_cation hd)
    isAlpha low tf ht fs e ha hz (by rw [hc]; exact hfs)
  rw [hs, Option.some.injEq] at hsc
  subst hsc
  have hwf : ∀ b ∈ s.toS.blocks, b.wf := by
    intro b hb
    obtain ⟨b', hb', rfl⟩ := List.mem_map.mp hb
    exact (hg b' hb').wf
  refine ⟨R, ?_, stores_exists hwf hR, fun A hA => ?_⟩
  · rw [← hi, hc]
    rfl
  · obtain ⟨t, t1, t2, t3⟩ := file_moment hG.wf hg hR hA hu
    exact ⟨t, t1, t2, hP _ t3⟩

/-- The data of the neutral atom in the list of results. -/
theorem fits_data {p : DataFile × JEntry × JEntry} (hp : p ∈ Data.fits) {d : DataFile} (hd : d ∈ Data.bundled)
    (hc : d.charge = .neutral) (hz : d.z = p.1.z) : p.1 = d := by
  have h1 : p.1 ∈ Data.bundled.take 54 := by
    rw [← fits_bundled]
    exact List.mem_map.mpr ⟨p, hp, rfl⟩
  have h2 : p.1 ∈ Data.bundled := List.mem_of_mem_take h1
  have h3 : p.1.charge = .neutral := by
    have key : ∀ q ∈ (Data.bundled.take 54).map (fun d => d.charge), q = Charge.neutral := by decide +kernel
    exact key _ (List.mem_map.mpr ⟨p.1, h1, rfl⟩)
  exact List.inj_on_of_nodup_map C89_complete.1 h2 hd (by simp only [hz, h3, hc])

/-- The dictionary holds usable parameters for the element. -/
structure Usable (v : FitEntry) (c e : List ℝ) : Prop where
  coeffs : v.coeffs = fins c
  exps : v.exps = fins e
  lenC : c.length = v.numS + v.numP
  lenE : e.length = v.numS + v.numP
  posC : ∀ x ∈ c, 0 < x
  posE : ∀ x ∈ e, 0 < x

theorem usable_of {f : DFit} (hf : f.Good) : Usable f.entry (f.cs.map pv) (f.es.map pv) := by
  refine ⟨rfl, rfl, by rw [List.length_map, hf.lenC]; rfl, by rw [List.length_map, hf.lenE]; rfl, ?_, ?_⟩
  · intro x hx
    obtain ⟨p, hp, rfl⟩ := List.mem_map.mp hx
    exact pv_pos (hf.posC p hp).1
  · intro x hx
    obtain ⟨p, hp, rfl⟩ := List.mem_map.mp hx
    exact pv_pos (hf.posE p hp)

/-! ### C101 -/

theorem fpi_load {jload : Str → Py (List (Str × FitEntry))} (hj : ReadsFits jload) :
    jload Data.fpiText = .ok ((Data.fits.map fun p => p.2.1).map fun e => (e.sym, entryOf e)) := by
  refine load_fits hj ?_
  intro e he
  obtain ⟨p, hp, rfl⟩ := List.mem_map.mp he
  obtain ⟨-, -, s, u, f, g, -, -, h3, -⟩ := fits_sound hp
  exact ⟨f, h3⟩

theorem slsqp_load {jload : Str → Py (List (Str × FitEntry))} (hj : ReadsFits jload) :
    jload Data.slsqpText = .ok ((Data.fits.map fun p => p.2.2).map fun e => (e.sym, entryOf e)) := by
  refine load_fits hj ?_
  intro e he
  obtain ⟨p, hp, rfl⟩ := List.mem_map.mp he
  obtain ⟨-, -, s, u, f, g, -, -, -, h4, -⟩ := fits_sound hp
  exact ⟨g, h4⟩

theorem symbols_nodup54 : (symbols.take 54).Nodup := by decide +kernel

/-- **C101**.  `kl_fpi_results.json` holds parameters for hydrogen to xenon: as many coefficients and exponents
as functions, all positive.  The model with these parameters is positive everywhere, integrates to the number of
electrons up to a factor `1 ± 4e-11`, and its mean square radius is the one of the Hartree-Fock density of the
neutral atom that `SlaterAtoms` computes from the bundled data, up to a factor `1 ± 2e-5`. -/
theorem C101_fpi (jload : Str → Py (List (Str × FitEntry))) (hj : ReadsFits jload) (sym : Str) (z : ℕ)
    (hz : HasZ sym z) (h54 : z ≤ 54) (d : DataFile) (hd : d ∈ Data.bundled) (hdz : d.z = z)
    (hdc : d.charge = .neutral) :
    ∃ data v c e Q M, jload Data.fpiText = .ok data ∧ fitOf data sym = .ok v ∧ Usable v c e ∧
      FitMoments v Q M ∧ |Q - z| ≤ 4e-11 * z ∧ SlaterMomentIs d fun M₀ => |M - M₀| ≤ 2e-5 * M₀ := by
  obtain ⟨p, hp, hpz⟩ := fits_mem hz.1 h54
  obtain ⟨s1, -, s, u, f, g, h1, h2, h3, -, h5, -, h7, h8, -⟩ := fits_sound hp
  have hpd := fits_data hp hd hdc (hdz.trans hpz.symm)
  obtain ⟨M, m1, m2, m3⟩ := fitMoments_of h5
  have hsym : p.2.1.sym = sym := hasZ_sym s1 (hpz ▸ hz)
  refine ⟨_, f.entry, _, _, _, M, fpi_load hj, ?_, usable_of h5, m1, ?_, ?_⟩
  · have := fitOf_mem (es := Data.fits.map fun p => p.2.1) (by rw [fits_fpi_sym]; exact symbols_nodup54)
      (List.mem_map.mpr ⟨p, hp, rfl⟩)
    rw [hsym] at this
    rw [this]
    simp only [entryOf, h3]
  · have := sumOk_sound h5 h7
    rw [hpz] at this
    norm_num at this ⊢
    exact this
  · rw [← hpd]
    refine slater_moment (hpd ▸ hd) (hpd ▸ hdc) h1 h2 fun M0 hM0 => ?_
    have := momOk_sound h8 (by norm_num) m2 m3 hM0
    norm_num at this ⊢
    exact this

/-- Other names raise `KeyError`: heavier elements, and symbols that are not in lower case. -/
theorem C101_other (jload : Str → Py (List (Str × FitEntry))) (hj : ReadsFits jload) (sym : Str)
    (hs : ∀ z ≤ 54, ¬ HasZ sym z) :
    ∃ data data', jload Data.fpiText = .ok data ∧ fitOf data sym = raise .keyError ∧
      jload Data.slsqpText = .ok data' ∧ fitOf data' sym = raise .keyError := by
  have h54 : ∀ p ∈ Data.fits, p.1.z ≤ 54 := by
    intro p hp
    have : p.1.z ∈ Data.fits.map (fun p => p.1.z) := List.mem_map.mpr ⟨p, hp, rfl⟩
    rw [fits_z, List.mem_range'_1] at this
    omega
  refine ⟨_, _, fpi_load hj, fitOf_none ?_, slsqp_load hj, fitOf_none ?_⟩
  · intro e he h
    obtain ⟨p, hp, rfl⟩ := List.mem_map.mp he
    exact hs _ (h54 p hp) (h ▸ (fits_sound hp).1)
  · intro e he h
    obtain ⟨p, hp, rfl⟩ := List.mem_map.mp he
    exact hs _ (h54 p hp) (h ▸ (fits_sound hp).2.1)

/-- The numbers of functions in both files. -/
theorem fits_counts : Data.fits.map (fun p => (p.1.z, jnatF p.2.1.numS, jnatF p.2.1.numP)) =
    (Data.ugbsBlocks.take 54).map fun b => (b.z, some (b.count 'S'), some (b.count 'P')) := by decide +kernel

/-- **C101** (sizes).  Both files have as many s-type and p-type functions for an element as
`get_ugbs_exponents` returns exponents for these shells. -/
theorem C101_counts (jload : Str → Py (List (Str × FitEntry))) (hj : ReadsFits jload) (sym : Str) (z : ℕ)
    (hz : HasZ sym z) (h54 : z ≤ 54)
    (low : Str → Str) (hl : LowersAscii low) (tf : Str → Py XR) (ht : ReadsFloats tf)
    (fs : Str → Option (List Str)) (dir : Str) (hf : fs (dir ++ "data/ygbs".toList) = some Data.ugbsLines)
    (s : Str) (hs : low s = sym) :
    ∃ data data' v v' out, jload Data.fpiText = .ok data ∧ fitOf data sym = .ok v ∧
      jload Data.slsqpText = .ok data' ∧ fitOf data' sym = .ok v' ∧ v'.numS = v.numS ∧ v'.numP = v.numP ∧
      ugbsExponents low tf fs (dir ++ "parse_ugbs.py".toList) (.str s) = .ok out ∧
      ∃ ls lp : List ℝ, out "S".toList = some (fins ls) ∧ out "P".toList = some (fins lp) ∧
        ls.length = v.numS ∧ lp.length = v.numP := by
  obtain ⟨p, hp, hpz⟩ := fits_mem hz.1 h54
  obtain ⟨s1, s2, -, -, f, g, -, -, h3, h4, h5, -, -, -, -, -, -, h6, h7⟩ := fits_sound hp
  have hm : (p.1.z, jnatF p.2.1.numS, jnatF p.2.1.numP) ∈
      (Data.ugbsBlocks.take 54).map fun b => (b.z, some (b.count 'S'), some (b.count 'P')) := by
    rw [← fits_counts]
    exact List.mem_map.mpr ⟨p, hp, rfl⟩
  obtain ⟨b, hb, hbe⟩ := List.mem_map.mp hm
  simp only [Prod.mk.injEq] at hbe
  obtain ⟨b1, b2, b3⟩ := hbe
  obtain ⟨out, o1, o2⟩ := ugbs_counts low hl tf ht fs dir hf s b (List.mem_of_mem_take hb)
    (by rw [hs, b1, hpz]; exact hz)
  obtain ⟨ls, l1, l2⟩ := o2 'S' (by simp)
  obtain ⟨lp, q1, q2⟩ := o2 'P' (by simp)
  have hm3 := (scan_sound h3).1
  have hS : b.count 'S' = f.ns := by
    exact (jnatF_sound b2.symm).2.2.2.trans hm3.numS.2.2.2.symm
  have hP : b.count 'P' = f.np := by
    exact (jnatF_sound b3.symm).2.2.2.trans hm3.numP.2.2.2.symm
  have e1 := fitOf_mem (es := Data.fits.map fun p => p.2.1) (by rw [fits_fpi_sym]; exact symbols_nodup54)
    (List.mem_map.mpr ⟨p, hp, rfl⟩)
  have e2 := fitOf_mem (es := Data.fits.map fun p => p.2.2) (by rw [fits_slsqp_sym]; exact symbols_nodup54)
    (List.mem_map.mpr ⟨p, hp, rfl⟩)
  rw [hasZ_sym s1 (hpz ▸ hz)] at e1
  rw [hasZ_sym s2 (hpz ▸ hz)] at e2
  refine ⟨_, _, f.entry, g.entry, out, fpi_load hj, ?_, slsqp_load hj, ?_, h6.symm, h7.symm, o1, ls, lp, l1, q1,
    l2.trans hS, q2.trans hP⟩
  · rw [e1]
    simp only [entryOf, h3]
  · rw [e2]
    simp only [entryOf, h4]

/-! ### C102 -/

/-- The parts of C102 for an element. -/
theorem slsqp_sound {jload : Str → Py (List (Str × FitEntry))} (hj : ReadsFits jload) {sym : Str} {z : ℕ}
    (hz : HasZ sym z) (h54 : z ≤ 54) {d : DataFile} (hd : d ∈ Data.bundled) (hdz : d.z = z)
    (hdc : d.charge = .neutral) :
    ∃ data v c e Q M, jload Data.slsqpText = .ok data ∧ fitOf data sym = .ok v ∧ Usable v c e ∧
      FitMoments v Q M ∧ |Q - z| ≤ 3e-6 * z ∧
      (z ∉ slsqpBad → SlaterMomentIs d fun M₀ => |M - M₀| ≤ 3e-6 * M₀) ∧
      (z ∈ slsqpBad → SlaterMomentIs d fun M₀ => 1000 * M₀ ≤ M) := by
  obtain ⟨p, hp, hpz⟩ := fits_mem hz.1 h54
  obtain ⟨-, s2, s, u, f, g, h1, h2, -, h4, -, h6, -, -, h9, h10, h11, -⟩ := fits_sound hp
  have hpd := fits_data hp hd hdc (hdz.trans hpz.symm)
  obtain ⟨M, m1, m2, m3⟩ := fitMoments_of h6
  have hsym : p.2.2.sym = sym := hasZ_sym s2 (hpz ▸ hz)
  refine ⟨_, g.entry, _, _, _, M, slsqp_load hj, ?_, usable_of h6, m1, ?_, ?_, ?_⟩
  · have := fitOf_mem (es := Data.fits.map fun p => p.2.2) (by rw [fits_slsqp_sym]; exact symbols_nodup54)
      (List.mem_map.mpr ⟨p, hp, rfl⟩)
    rw [hsym] at this
    rw [this]
    simp only [entryOf, h4]
  · have := sumOk_sound h6 h9
    rw [hpz] at this
    norm_num at this ⊢
    exact this
  · intro hb
    rw [← hpd]
    refine slater_moment (hpd ▸ hd) (hpd ▸ hdc) h1 h2 fun M0 hM0 => ?_
    have := momOk_sound (h10 (hpz ▸ hb)) (by norm_num) m2 m3 hM0
    norm_num at this ⊢
    exact this
  · intro hb
    rw [← hpd]
    exact slater_moment (hpd ▸ hd) (hpd ▸ hdc) h1 h2 fun M0 hM0 => momBad_sound (h11 (hpz ▸ hb)) m2 hM0

/-- **C102** (except calcium, ruthenium, tin, antimony and xenon).  `kl_slsqp_results.json` likewise; the
integrals are right up to a factor `1 ± 3e-6`, and so are the mean square radii. -/
theorem C102_slsqp_partial (jload : Str → Py (List (Str × FitEntry))) (hj : ReadsFits jload) (sym : Str) (z : ℕ)
    (hz : HasZ sym z) (h54 : z ≤ 54) (d : DataFile) (hd : d ∈ Data.bundled) (hdz : d.z = z)
    (hdc : d.charge = .neutral) :
    ∃ data v c e Q M, jload Data.slsqpText = .ok data ∧ fitOf data sym = .ok v ∧ Usable v c e ∧
      FitMoments v Q M ∧ |Q - z| ≤ 3e-6 * z ∧
      (z ∉ [20, 44, 50, 51, 54] → SlaterMomentIs d fun M₀ => |M - M₀| ≤ 3e-6 * M₀) := by
  obtain ⟨data, v, c, e, Q, M, h1, h2, h3, h4, h5, h6, -⟩ := slsqp_sound hj hz h54 hd hdz hdc
  exact ⟨data, v, c, e, Q, M, h1, h2, h3, h4, h5, h6⟩

/-- **C102** does not hold for calcium, ruthenium, tin, antimony and xenon: the mean square radius of the
recommended result is more than 1000 times the one of the atom. -/
theorem C102_wrong (jload : Str → Py (List (Str × FitEntry))) (hj : ReadsFits jload) (sym : Str) (z : ℕ)
    (hz : HasZ sym z) (hb : z ∈ [20, 44, 50, 51, 54]) (d : DataFile) (hd : d ∈ Data.bundled) (hdz : d.z = z)
    (hdc : d.charge = .neutral) :
    ∃ data v c e Q M, jload Data.slsqpText = .ok data ∧ fitOf data sym = .ok v ∧ Usable v c e ∧
      FitMoments v Q M ∧ SlaterMomentIs d fun M₀ => 1000 * M₀ ≤ M := by
  have h54 : z ≤ 54 := by
    simp only [List.mem_cons, List.not_mem_nil, or_false] at hb
    omega
  obtain ⟨data, v, c, e, Q, M, h1, h2, h3, h4, -, -, h7⟩ := slsqp_sound hj hz h54 hd hdz hdc
  exact ⟨data, v, c, e, Q, M, h1, h2, h3, h4, h7 hb⟩

/-! ### A reader of such files -/

/-- Characters that end a word. -/
def JStop (c : Char) : Bool := c == ',' || c == ']' || c == '"'

theorem split_stop {a b r r' : Str} (ha : ∀ c ∈ a, JStop c = false) (hb : ∀ c ∈ b, JStop c = false)
    (hr : ∃ c t, r = c :: t ∧ JStop c = true) (hr' : ∃ c t, r' = c :: t ∧ JStop c = true)
    (h : a ++ r = b ++ r') : a = b ∧ r = r' := by
  induction a generalizing b with
  | nil =>
    cases b with
    | nil => exact ⟨rfl, h⟩
    | cons x b =>
      obtain ⟨c, t, rfl, hc⟩ := hr
      rw [List.nil_append, List.cons_append, List.cons.injEq] at h
      have := hb x List.mem_cons_self
      rw [← h.1, hc] at this
      exact absurd this (by decide)
  | cons y a ih =>
    cases b with
    | nil =>
      obtain ⟨c, t, rfl, hc⟩ := hr'
      rw [List.nil_append, List.cons_append, List.cons.injEq] at h
      have := ha y List.mem_cons_self
      rw [h.1, hc] at this
      exact absurd this (by decide)
    | cons x b =>
      rw [List.cons_append, List.cons_append, List.cons.injEq] at h
      obtain ⟨h1, h2⟩ := ih (fun c hc => ha c (List.mem_cons_of_mem _ hc))
        (fun c hc => hb c (List.mem_cons_of_mem _ hc)) h.2
      exact ⟨by rw [h.1, h1], h2⟩

theorem commas_cons (w : Str) (ws : List Str) :
    commas (w :: ws) = w ++ (ws.map fun x => ',' :: ' ' :: x).flatten := by
  induction ws generalizing w with
  | nil => simp [commas]
  | cons x ws ih =>
    have : ", ".toList = [',', ' '] := rfl
    rw [commas, ih, this]
    simp

theorem tails_inj {P : Str → Prop} {q : Char} (hq : q ≠ ',') (hqs : JStop q = true)
    (hP : ∀ w w' r r' : Str, P w → P w' → (∃ c t, r = c :: t ∧ JStop c = true) →
      (∃ c t, r' = c :: t ∧ JStop c = true) → w ++ r = w' ++ r' → w = w' ∧ r = r')
    {ws ws' : List Str} {r r' : Str} (h1 : ∀ w ∈ ws, P w) (h2 : ∀ w ∈ ws', P w)
    (h : (ws.map fun x => ',' :: ' ' :: x).flatten ++ q :: r =
      (ws'.map fun x => ',' :: ' ' :: x).flatten ++ q :: r') : ws = ws' ∧ r = r' := by
  have hs : ∀ (l : List Str) (t : Str), ∃ c u,
      (l.map fun x => ',' :: ' ' :: x).flatten ++ q :: t = c :: u ∧ JStop c = true := by
    intro l t
    cases l with
    | nil => exact ⟨q, t, rfl, hqs⟩
    | cons a l => exact ⟨',', _, rfl, rfl⟩
  induction ws generalizing ws' with
  | nil =>
    cases ws' with
    | nil => exact ⟨rfl, (List.cons.inj h).2⟩
    | cons w' ws' => exact absurd (List.cons.inj h).1 hq
  | cons w ws ih =>
    cases ws' with
    | nil => exact absurd (List.cons.inj h).1.symm hq
    | cons w' ws' =>
      simp only [List.map_cons, List.flatten_cons, List.cons_append, List.cons.injEq, true_and,
        List.append_assoc] at h
      obtain ⟨e1, e2⟩ := hP w w' _ _ (h1 w List.mem_cons_self) (h2 w' List.mem_cons_self) (hs _ _) (hs _ _) h
      obtain ⟨e3, e4⟩ := ih (fun x hx => h1 x (List.mem_cons_of_mem _ hx))
        (fun x hx => h2 x (List.mem_cons_of_mem _ hx)) e2
      exact ⟨by rw [e1, e3], e4⟩

theorem commas_inj {P : Str → Prop} {q : Char} (hq : q ≠ ',') (hqs : JStop q = true)
    (hP : ∀ w w' r r' : Str, P w → P w' → (∃ c t, r = c :: t ∧ JStop c = true) →
      (∃ c t, r' = c :: t ∧ JStop c = true) → w ++ r = w' ++ r' → w = w' ∧ r = r')
    (hne : ∀ w, P w → ∃ c t, w = c :: t ∧ c ≠ q)
    {ws ws' : List Str} {r r' : Str} (h1 : ∀ w ∈ ws, P w) (h2 : ∀ w ∈ ws', P w)
    (h : commas ws ++ q :: r = commas ws' ++ q :: r') : ws = ws' ∧ r = r' := by
  cases ws with
  | nil =>
    cases ws' with
    | nil => exact ⟨rfl, (List.cons.inj h).2⟩
    | cons w' ws' =>
      obtain ⟨c, t, rfl, hc⟩ := hne w' (h2 w' List.mem_cons_self)
      rw [commas_cons] at h
      exact absurd (List.cons.inj h).1.symm hc
  | cons w ws =>
    cases ws' with
    | nil =>
      obtain ⟨c, t, rfl, hc⟩ := hne w (h1 w List.mem_cons_self)
      rw [commas_cons] at h
      exact absurd (List.cons.inj h).1 hc
    | cons w' ws' =>
      refine tails_inj hq hqs hP h1 h2 ?_
      rw [commas_cons, commas_cons] at h
      simp only [List.map_cons, List.flatten_cons, List.cons_append]
      rw [h]

/-- Texts of numbers. -/
def JWord (w : Str) : Prop := w ≠ [] ∧ ∀ c ∈ w, JStop c = false

theorem digit_stop {c : Char} (h : c.isDigit = true) : JStop c = false := by
  cases hs : JStop c with
  | false => rfl
  | true =>
    simp only [JStop, Bool.or_eq_true, beq_iff_eq] at hs
    obtain (rfl | rfl) | rfl := hs <;> exact absurd h (by decide)

theorem alpha_stop {c : Char} (h : c.isAlpha = true) : JStop c = false := by
  cases hs : JStop c with
  | false => rfl
  | true =>
    simp only [JStop, Bool.or_eq_true, beq_iff_eq] at hs
    obtain (rfl | rfl) | rfl := hs <;> exact absurd h (by decide)

theorem JInt.word {w : Str} {n : ℕ} (h : JInt w n) : JWord w := ⟨h.1, fun c hc => digit_stop (h.2.1 c hc)⟩

theorem JFloat.word {w : Str} {x : ℝ} (h : JFloat w x) : JWord w := by
  obtain ⟨d, d', ex, n, rfl, h1, h2, h3, -, -⟩ := h
  refine ⟨by simp [h1.1], ?_⟩
  intro c hc
  rw [List.mem_append, List.mem_append] at hc
  obtain hc | hc | hc := hc
  · exact h1.word.2 c hc
  · split at hc
    · simp at hc
    · obtain rfl | hc := List.mem_cons.mp hc
      · rfl
      · exact digit_stop (h2 c hc)
  · split at hc
    · simp at hc
    · simp only [List.mem_cons] at hc
      obtain rfl | rfl | hc := hc
      · rfl
      · rfl
      · exact digit_stop (h3 c hc)

theorem word_inj : ∀ w w' r r' : Str, JWord w → JWord w' → (∃ c t, r = c :: t ∧ JStop c = true) →
      (∃ c t, r' = c :: t ∧ JStop c = true) → w ++ r = w' ++ r' → w = w' ∧ r = r' :=
  fun _ _ _ _ h h' hr hr' e => split_stop h.2 h'.2 hr hr' e

/-- Entries that can be read. -/
structure JEntry.Ok (e : JEntry) : Prop where
  sym : JWord e.sym
  numS : JWord e.numS
  numP : JWord e.numP
  coeffs : ∀ w ∈ e.coeffs, JWord w
  exps : ∀ w ∈ e.exps, JWord w

theorem JEntry.Means.ok {e : JEntry} {v : FitEntry} (h : e.Means v) : e.Ok := by
  refine ⟨⟨h.sym.1, fun c hc => alpha_stop (h.sym.2 c hc)⟩, h.numS.word, h.numP.word, ?_, ?_⟩
  · intro w hw
    obtain ⟨hl, hg⟩ := List.forall₂_iff_get.mp h.coeffs
    obtain ⟨i, hi, rfl⟩ := List.mem_iff_getElem.mp hw
    obtain ⟨y, hy, -⟩ := hg i hi (hl ▸ hi)
    exact hy.word
  · intro w hw
    obtain ⟨hl, hg⟩ := List.forall₂_iff_get.mp h.exps
    obtain ⟨i, hi, rfl⟩ := List.mem_iff_getElem.mp hw
    obtain ⟨y, hy, -⟩ := hg i hi (hl ▸ hi)
    exact hy.word

theorem word_ne {q : Char} (hq : JStop q = true) : ∀ w, JWord w → ∃ c t, w = c :: t ∧ c ≠ q := by
  intro w hw
  cases w with
  | nil => exact absurd rfl hw.1
  | cons c t =>
    refine ⟨c, t, rfl, ?_⟩
    rintro rfl
    have := hw.2 c List.mem_cons_self
    rw [hq] at this
    exact absurd this (by decide)

theorem text_eq (e : JEntry) (r : Str) : e.text ++ r = '"' :: (e.sym ++ '"' :: (": {\"num_s\": ".toList ++
    (e.numS ++ ',' :: (" \"num_p\": ".toList ++ (e.numP ++ ',' :: (" \"coeffs\": [".toList ++
    (commas e.coeffs ++ ']' :: (", \"exps\": [".toList ++ (commas e.exps ++ ']' :: '}' :: r))))))))) := by
  unfold JEntry.text
  simp

theorem text_inj {e e' : JEntry} (he : e.Ok) (he' : e'.Ok) {r r' : Str} (h : e.text ++ r = e'.text ++ r') :
    e = e' ∧ r = r' := by
  rw [text_eq, text_eq, List.cons.injEq] at h
  obtain ⟨h1, h⟩ := split_stop he.sym.2 he'.sym.2 ⟨_, _, rfl, rfl⟩ ⟨_, _, rfl, rfl⟩ h.2
  have h := List.append_cancel_left (List.cons.inj h).2
  obtain ⟨h2, h⟩ := split_stop he.numS.2 he'.numS.2 ⟨_, _, rfl, rfl⟩ ⟨_, _, rfl, rfl⟩ h
  have h := List.append_cancel_left (List.cons.inj h).2
  obtain ⟨h3, h⟩ := split_stop he.numP.2 he'.numP.2 ⟨_, _, rfl, rfl⟩ ⟨_, _, rfl, rfl⟩ h
  have h := List.append_cancel_left (List.cons.inj h).2
  obtain ⟨h4, h⟩ := commas_inj (by decide) rfl word_inj (word_ne rfl) he.coeffs he'.coeffs h
  have h := List.append_cancel_left h
  obtain ⟨h5, h6⟩ := commas_inj (by decide) rfl word_inj (word_ne rfl) he.exps he'.exps h
  clear h
  cases e
  cases e'
  simp only at h1 h2 h3 h4 h5
  subst h1 h2 h3 h4 h5
  exact ⟨rfl, (List.cons.inj h6).2⟩

theorem texts_inj {es es' : List JEntry} (he : ∀ e ∈ es, e.Ok) (he' : ∀ e ∈ es', e.Ok)
    (h : fitsText es = fitsText es') : es = es' := by
  have h0 : ∀ l : List JEntry, fitsText l = '{' :: (commas (l.map JEntry.text) ++ ['}']) := by
    intro l
    unfold fitsText
    simp
  rw [h0, h0] at h
  have h := List.append_cancel_right (List.cons.inj h).2
  have key : ∀ {l l' : List JEntry}, (∀ e ∈ l, e.Ok) → (∀ e ∈ l', e.Ok) →
      ((l.map JEntry.text).map fun x => ',' :: ' ' :: x).flatten =
        ((l'.map JEntry.text).map fun x => ',' :: ' ' :: x).flatten → l = l' := by
    intro l
    induction l with
    | nil =>
      intro l' _ _ hh
      cases l' with
      | nil => rfl
      | cons a l' => simp at hh
    | cons a l ih =>
      intro l' hl hl' hh
      cases l' with
      | nil => simp at hh
      | cons b l' =>
        simp only [List.map_cons, List.flatten_cons, List.cons_append, List.cons.injEq, true_and] at hh
        obtain ⟨e1, e2⟩ := text_inj (hl a List.mem_cons_self) (hl' b List.mem_cons_self) hh
        rw [e1, ih (fun x hx => hl x (List.mem_cons_of_mem _ hx)) (fun x hx => hl' x (List.mem_cons_of_mem _ hx)) e2]
  have ht : ∀ e : JEntry, e.text ≠ [] := by
    intro e h
    have := text_eq e []
    rw [List.append_nil, h] at this
    exact absurd this (by simp)
  cases es with
  | nil =>
    cases es' with
    | nil => rfl
    | cons a l =>
      rw [List.map_nil, List.map_cons, commas_cons] at h
      exact absurd (List.append_eq_nil_iff.mp h.symm).1 (ht a)
  | cons a l =>
    cases es' with
    | nil =>
      rw [List.map_nil, List.map_cons, commas_cons] at h
      exact absurd (List.append_eq_nil_iff.mp h).1 (ht a)
    | cons b l' =>
      refine key he he' ?_
      rw [List.map_cons, List.map_cons, commas_cons, commas_cons] at h
      simp only [List.map_cons, List.flatten_cons, List.cons_append]
      rw [h]

/-- The number a text stands for. -/
def readFloat (w : Str) : ℝ :=
  match w.dropWhile Char.isDigit with
  | '.' :: r => (decDigits (w.takeWhile Char.isDigit ++ r.takeWhile Char.isDigit) : ℝ) /
      10 ^ ((r.takeWhile Char.isDigit).length + decDigits ((r.dropWhile Char.isDigit).drop 2))
  | r => (decDigits (w.takeWhile Char.isDigit) : ℝ) / 10 ^ decDigits (r.drop 2)

theorem readFloat_eq {w : Str} {x : ℝ} (h : JFloat w x) : readFloat w = x := by
  obtain ⟨d, d', ex, n, rfl, h1, h2, h3, h4, rfl⟩ := h
  have hE : ∀ l : Str, (∀ c ∈ l, c.isDigit = true) →
      (l ++ if ex = [] then [] else 'e' :: '-' :: ex).takeWhile Char.isDigit = l ∧
      (l ++ if ex = [] then [] else 'e' :: '-' :: ex).dropWhile Char.isDigit =
        if ex = [] then [] else 'e' :: '-' :: ex := by
    intro l hl
    rw [List.takeWhile_append_of_pos hl, List.dropWhile_append_of_pos hl]
    split <;> simp [List.takeWhile, List.dropWhile, show Char.isDigit 'e' = false from rfl]
  by_cases hd : d' = []
  · have he : ex ≠ [] := fun h => h4 ⟨hd, h⟩
    obtain ⟨t1, t2⟩ := hE d h1.2.1
    rw [if_pos hd, List.nil_append, hd]
    unfold readFloat
    rw [t1, t2, if_neg he]
    simp
  · have t : (d ++ ('.' :: d' ++ if ex = [] then [] else 'e' :: '-' :: ex)).takeWhile Char.isDigit = d ∧
        (d ++ ('.' :: d' ++ if ex = [] then [] else 'e' :: '-' :: ex)).dropWhile Char.isDigit =
          '.' :: (d' ++ if ex = [] then [] else 'e' :: '-' :: ex) := by
      rw [List.takeWhile_append_of_pos h1.2.1, List.dropWhile_append_of_pos h1.2.1]
      simp [show Char.isDigit '.' = false from rfl]
    obtain ⟨t1, t2⟩ := hE d' h2
    rw [if_neg hd]
    unfold readFloat
    rw [t.1, t.2]
    simp only
    rw [t1, t2]
    by_cases he : ex = []
    · simp [he]
    · rw [if_neg he]
      simp

theorem means_unique {e : JEntry} {v v' : FitEntry} (h : e.Means v) (h' : e.Means v') : v = v' := by
  have key : ∀ {ws : List Str} {xs : List XR},
      List.Forall₂ (fun w x => ∃ y, JFloat w y ∧ x = XR.fin y) ws xs → xs = ws.map fun w => .fin (readFloat w) := by
    intro ws xs hf
    induction hf with
    | nil => rfl
    | cons hx _ ih =>
      obtain ⟨y, hy, rfl⟩ := hx
      rw [List.map_cons, readFloat_eq hy, ih]
  cases v
  cases v'
  have h1 := h.numS.2.2.2.trans h'.numS.2.2.2.symm
  have h2 := h.numP.2.2.2.trans h'.numP.2.2.2.symm
  have h3 := (key h.coeffs).trans (key h'.coeffs).symm
  have h4 := (key h.exps).trans (key h'.exps).symm
  simp only at h1 h2 h3 h4
  subst h1 h2 h3 h4
  rfl

/-- A reader of such files. -/
def readFits (w : Str) : Py (List (Str × FitEntry)) :=
  if h : ∃ (data : List (Str × FitEntry)) (es : List JEntry),
      List.Forall₂ (fun e p => p.1 = e.sym ∧ e.Means p.2) es data ∧ fitsText es = w
  then .ok h.choose else raise .valueError

theorem readFits_reads : ReadsFits readFits := by
  intro es data hf
  have hex : ∃ (data' : List (Str × FitEntry)) (es' : List JEntry),
      List.Forall₂ (fun e p => p.1 = e.sym ∧ e.Means p.2) es' data' ∧ fitsText es' = fitsText es := ⟨data, es, hf, rfl⟩
  have hok : ∀ {l : List JEntry} {dt : List (Str × FitEntry)},
      List.Forall₂ (fun e p => p.1 = e.sym ∧ e.Means p.2) l dt → ∀ e ∈ l, e.Ok := by
    intro l dt hl
    induction hl with
    | nil => simp
    | cons hx _ ih =>
      intro e he
      obtain rfl | he := List.mem_cons.mp he
      · exact hx.2.ok
      · exact ih e he
  have huniq : ∀ {l : List JEntry} {dt dt' : List (Str × FitEntry)},
      List.Forall₂ (fun e p => p.1 = e.sym ∧ e.Means p.2) l dt →
      List.Forall₂ (fun e p => p.1 = e.sym ∧ e.Means p.2) l dt' → dt = dt' := by
    intro l dt dt' hl
    induction hl generalizing dt' with
    | nil =>
      intro hl'
      cases hl'
      rfl
    | cons hx _ ih =>
      intro hl'
      cases hl' with
      | cons hx' hl' =>
        rw [ih hl']
        congr 1
        exact Prod.ext (hx.1.trans hx'.1.symm) (means_unique hx.2 hx'.2)
  unfold readFits
  rw [dif_pos hex]
  obtain ⟨es', h1, h2⟩ := hex.choose_spec
  have := texts_inj (hok h1) (hok hf) h2
  subst this
  rw [huniq h1 hf]

/-! ### Examples -/

/-- Beryllium (`z = 4`) and calcium (`z = 20`): the bundled neutral atoms exist. -/
theorem bundled_neutral {z : ℕ} (h1 : 1 ≤ z) (h2 : z ≤ 54) :
    ∃ d ∈ Data.bundled, d.z = z ∧ d.charge = .neutral := by
  obtain ⟨p, hp, hpz⟩ := fits_mem h1 h2
  have h3 : p.1 ∈ Data.bundled.take 54 := by
    rw [← fits_bundled]
    exact List.mem_map.mpr ⟨p, hp, rfl⟩
  have key : ∀ q ∈ (Data.bundled.take 54).map (fun d => d.charge), q = Charge.neutral := by decide +kernel
  exact ⟨p.1, List.mem_of_mem_take h3, hpz, key _ (List.mem_map.mpr ⟨p.1, h3, rfl⟩)⟩

/-- The README's example, beryllium: the fit integrates to 4 within `1.6e-10`, and has the mean square radius of
the atom. -/
example : ∃ data v c e Q M d, readFits Data.fpiText = .ok data ∧ fitOf data "be".toList = .ok v ∧ Usable v c e ∧
    FitMoments v Q M ∧ |Q - 4| ≤ 1.6e-10 ∧ d ∈ Data.bundled ∧ d.z = 4 ∧
    SlaterMomentIs d fun M₀ => |M - M₀| ≤ 2e-5 * M₀ := by
  obtain ⟨d, hd, hz, hc⟩ := bundled_neutral (z := 4) (by norm_num) (by norm_num)
  obtain ⟨data, v, c, e, Q, M, h1, h2, h3, h4, h5, h6⟩ := C101_fpi readFits readFits_reads "be".toList 4
    ⟨by norm_num, rfl⟩ (by norm_num) d hd hz hc
  refine ⟨data, v, c, e, Q, M, d, h1, h2, h3, h4, ?_, hd, hz, h6⟩
  norm_num at h5 ⊢
  exact h5

/-- `SlaterMomentIs` can be used: reading the file of the calcium atom gives an atom, and the SLSQP result is
more than 1000 times too wide for it. -/
example : ∃ data v c e Q M d R A t, readFits Data.slsqpText = .ok data ∧ fitOf data "ca".toList = .ok v ∧
    Usable v c e ∧ FitMoments v Q M ∧ d ∈ Data.bundled ∧ d.z = 20 ∧
    slaterInit (fun _ => true) (fun s => s.map Char.toLower) (fun w => .ok (.fin (readDec w)))
      (fun p => if p = Charge.path .neutral "ca".toList then some d.lines else none) (.str "Ca".toList) false false =
        some (.ok R) ∧ Stores R A ∧
    (∀ x : List ℝ, A.atomicDensity (ND.vec (fins x)) "total" = .ok (fins (x.map t))) ∧
    1000 * ∫ p : EuclideanSpace ℝ (Fin 3), ‖p‖ ^ 2 * t ‖p‖ ≤ M := by
  obtain ⟨d, hd, hz, hc⟩ := bundled_neutral (z := 20) (by norm_num) (by norm_num)
  obtain ⟨data, v, c, e, Q, M, h1, h2, h3, h4, h5⟩ := C102_wrong readFits readFits_reads "ca".toList 20
    ⟨by norm_num, rfl⟩ (by simp) d hd hz hc
  obtain ⟨R, r1, ⟨A, hA⟩, r2⟩ := h5 (fun _ => true) (fun s => s.map Char.toLower) _ reads_example
    (fun p => if p = Charge.path .neutral "ca".toList then some d.lines else none) "Ca".toList rfl
    (by rw [hz]; exact ⟨by norm_num, rfl⟩) (if_pos rfl)
  obtain ⟨t, t1, -, t2⟩ := r2 A hA
  exact ⟨data, v, c, e, Q, M, d, R, A, t, h1, h2, h3, h4, hd, hz, r1, hA, t1, t2⟩

/-- Capital letters are not understood. -/
example : ∃ data, readFits Data.fpiText = .ok data ∧ fitOf data "Be".toList = raise .keyError := by
  obtain ⟨data, -, h1, h2, -⟩ := C101_other readFits readFits_reads "Be".toList (by
    intro z hz h
    have hm : "Be".toList ∈ symbols := List.mem_of_getElem? h.2
    exact absurd hm (by decide +kernel))
  exact ⟨data, h1, h2⟩

/-- Sizes for carbon. -/
example : ∃ data v out, readFits Data.fpiText = .ok data ∧ fitOf data "c".toList = .ok v ∧
    ugbsExponents (fun s => s.map Char.toLower) (fun w => .ok (.fin (readSci w)))
      (fun p => if p = "/x/data/ygbs".toList then some Data.ugbsLines else none) "/x/parse_ugbs.py".toList
      (.str "C".toList) = .ok out ∧
    ∃ ls lp : List ℝ, out "S".toList = some (fins ls) ∧ out "P".toList = some (fins lp) ∧
      ls.length = v.numS ∧ lp.length = v.numP := by
  have hf : (fun p : Str => if p = "/x/data/ygbs".toList then some Data.ugbsLines else none)
      ("/x/".toList ++ "data/ygbs".toList) = some Data.ugbsLines := if_pos (by decide)
  obtain ⟨data, -, v, -, out, h1, h2, -, -, -, -, h3, h4⟩ := C101_counts readFits readFits_reads "c".toList 6
    ⟨by norm_num, rfl⟩ (by norm_num) (fun s => s.map Char.toLower) (fun _ _ => rfl) _ reads_floats_example
    (fun p => if p = "/x/data/ygbs".toList then some Data.ugbsLines else none) "/x/".toList hf "C".toList (by decide)
  rw [show "/x/".toList ++ "parse_ugbs.py".toList = "/x/parse_ugbs.py".toList by decide] at h3
  exact ⟨data, v, out, h1, h2, h3, h4⟩

end
end BFit
