import Verif.Lemmas.NpzSound

/-! Property C140: the results of fits in the archives `.npz`. -/

namespace BFit

open Real MeasureTheory Set Classical

noncomputable section

/-! ### Moments of models with close parameters -/

theorem FitMoments.unique {v : FitEntry} {Q M Q' M' : ℝ} (h : FitMoments v Q M) (h' : FitMoments v Q' M') :
    Q = Q' ∧ M = M' := by
  obtain ⟨F, f1, -, -, -, f5, f6⟩ := h.out
  obtain ⟨G, g1, -, -, -, g5, g6⟩ := h'.out
  have : F = G := by
    funext r
    have := (f1 [r]).symm.trans (g1 [r])
    simpa [fins] using this
  subst this
  exact ⟨f5.symm.trans g5, f6.symm.trans g6⟩

/-- Second moment of a model. -/
def momOf (ns : ℕ) (c e : List ℝ) : ℝ :=
  (List.zipWith (fun c a => 3 * c / (2 * a)) (c.take ns) (e.take ns)).sum +
    (List.zipWith (fun c a => 5 * c / (2 * a)) (c.drop ns) (e.drop ns)).sum

theorem fitMoments_usable {v : FitEntry} {c e : List ℝ} (hu : Usable v c e) (hns : v.numS ≠ 0) :
    FitMoments v c.sum (momOf v.numS c e) := by
  obtain ⟨ns, np, cs, es⟩ := v
  obtain ⟨k1, k2, hc, he, hc0, he0⟩ := hu
  simp only at k1 k2 hc he hns ⊢
  subst k1 k2
  have h := C99_moments (c.take ns) (c.drop ns) (e.take ns) (e.drop ns) ns np (by simp; omega) (by simp; omega)
    (by simp; omega) (by simp; omega) (by rw [List.take_append_drop]; exact he0)
  rw [List.take_append_drop, List.take_append_drop, ← List.sum_append, List.take_append_drop] at h
  obtain ⟨G, g1, g2⟩ := h
  have hG : ∀ r, G |r| = atomDensity ns np true c e r := by
    intro r
    obtain ⟨-, m, h1, h2, h3⟩ := C18_radii_1d [r] 0 ns np (by omega) true
    obtain ⟨o, ho⟩ := g1 m _ h2 h3 false
    have := evaluate_fins h2 _ _ hc he (fun _ a ha => (he0 a ha).le) false
    rw [h3, ho] at this
    have h := (Prod.mk.inj (Except.ok.inj this)).1
    simpa [fins, atomDensity_abs] using h
  refine ⟨⟨atomDensity ns np true c e, ?_, ?_, ?_⟩⟩
  · intro rs
    obtain ⟨-, m, h1, h2, h3⟩ := C18_radii_1d rs 0 ns np (by omega) true
    have := evaluate_fins h2 _ _ hc he (fun _ a ha => (he0 a ha).le) false
    unfold fitModel
    simp only
    rw [h1]
    simp only
    rw [this, h3]
    simp only [List.map_map, Function.comp_def, atomDensity_abs]
  · exact atomDensity_pos hns hc he hc0 he0
  · have hn : ∀ x : EuclideanSpace ℝ (Fin 3), G ‖x‖ = atomDensity ns np true c e ‖x‖ := by
      intro x
      rw [← hG, abs_of_nonneg (norm_nonneg x)]
    have := g2 0
    simpa only [sub_zero, hn, momOf] using this

/-- The positive number `x` is the rounded `y`. -/
def Close (x y : ℝ) : Prop := 0 < x ∧ 0 < y ∧ |x - y| ≤ x / 2 ^ 53

theorem close_sum {l l' : List ℝ} (h : List.Forall₂ Close l l') : |l.sum - l'.sum| ≤ l.sum / 2 ^ 53 := by
  induction h with
  | nil => simp
  | cons hx _ ih =>
    rw [List.sum_cons, List.sum_cons, add_sub_add_comm, add_div]
    exact (abs_add_le _ _).trans (add_le_add hx.2.2 ih)

theorem close_ratio {q c c' a a' : ℝ} (hq : 0 < q) (hc : Close c c') (ha : Close a a') :
    |q * c / (2 * a) - q * c' / (2 * a')| ≤ q * c / (2 * a) / 2 ^ 51 := by
  obtain ⟨c0, c0', c1⟩ := hc
  obtain ⟨a0, a0', a1⟩ := ha
  rw [abs_le] at c1 a1
  have e : q * c / (2 * a) - q * c' / (2 * a') = q * (c * a' - c' * a) / (2 * (a * a')) := by
    field_simp
  have e' : q * c / (2 * a) / 2 ^ 51 = q * (c * a' / 2 ^ 51) / (2 * (a * a')) := by
    field_simp
  rw [e, e', abs_div, abs_mul, abs_of_pos hq, abs_of_pos (by positivity : 0 < 2 * (a * a'))]
  refine div_le_div_of_nonneg_right (mul_le_mul_of_nonneg_left ?_ hq.le) (by positivity)
  have p1 : 0 < c * a := by positivity
  have b1 := mul_le_mul_of_nonneg_left a1.1 c0.le
  have b2 := mul_le_mul_of_nonneg_left a1.2 c0.le
  have b3 := mul_le_mul_of_nonneg_left c1.1 a0.le
  have b4 := mul_le_mul_of_nonneg_left c1.2 a0.le
  rw [abs_le]
  constructor <;> ring_nf at b1 b2 b3 b4 p1 ⊢ <;> linarith

theorem close_mom {q : ℝ} (hq : 0 < q) {c c' e e' : List ℝ} (hc : List.Forall₂ Close c c')
    (he : List.Forall₂ Close e e') :
    |(List.zipWith (fun c a => q * c / (2 * a)) c e).sum - (List.zipWith (fun c a => q * c / (2 * a)) c' e').sum| ≤
      (List.zipWith (fun c a => q * c / (2 * a)) c e).sum / 2 ^ 51 := by
  induction hc generalizing e e' with
  | nil => simp
  | cons hx _ ih =>
    cases he with
    | nil => simp
    | cons hy he =>
      simp only [List.zipWith_cons_cons, List.sum_cons]
      rw [add_sub_add_comm, add_div]
      exact (abs_add_le _ _).trans (add_le_add (close_ratio hq hx hy) (ih he))

theorem close_momOf {ns : ℕ} {c c' e e' : List ℝ} (hc : List.Forall₂ Close c c') (he : List.Forall₂ Close e e') :
    |momOf ns c e - momOf ns c' e'| ≤ momOf ns c e / 2 ^ 51 := by
  unfold momOf
  rw [add_sub_add_comm, add_div]
  exact (abs_add_le _ _).trans (add_le_add
    (close_mom (by norm_num) (List.forall₂_take _ hc) (List.forall₂_take _ he))
    (close_mom (by norm_num) (List.forall₂_drop _ hc) (List.forall₂_drop _ he)))

theorem SlaterMomentIs.mono {d : DataFile} {P P' : ℝ → Prop} (h : SlaterMomentIs d P) (hP : ∀ x, P x → P' x) :
    SlaterMomentIs d P' := by
  intro isAlpha low tf ht fs s ha hz hf
  obtain ⟨R, h1, h2, h3⟩ := h isAlpha low tf ht fs s ha hz hf
  refine ⟨R, h1, h2, fun A hA => ?_⟩
  obtain ⟨t, t1, t2, t3⟩ := h3 A hA
  exact ⟨t, t1, t2, hP _ t3⟩

/-! ### Values in the archives -/

/-- Real numbers of doubles. -/
def reF (w : ℕ) : ℝ := reOf (f64 w)

theorem near_list {ps : List (ℕ × ℕ)} {ws : List ℕ} (h : List.Forall₂ (fun p w => nearF p w = true) ps ws)
    (hp : ∀ p ∈ ps, 1 ≤ p.1) :
    ws.map f64 = fins (ws.map reF) ∧ List.Forall₂ ReadsAs (ws.map f64) (fins (ps.map pv)) ∧
      List.Forall₂ Close (ws.map reF) (ps.map pv) := by
  induction h with
  | nil => exact ⟨rfl, .nil, .nil⟩
  | cons hx _ ih =>
    obtain ⟨i1, i2, i3⟩ := ih fun p h => hp p (by simp [h])
    obtain ⟨-, h2, a, h3, h4, h5⟩ := nearF_sound hx
    have hr := congrArg reOf h3
    change reF _ = a at hr
    refine ⟨?_, .cons h2 i2, .cons ⟨by rw [hr]; exact h4, pv_pos (hp _ (by simp)), by rw [hr]; exact h5⟩ i3⟩
    rw [List.map_cons, i1, List.map_cons, hr, h3]
    rfl

/-- The archive `ms` has the values of `v` for the element, each the closest double. -/
structure SameIn (ms : List (Str × List ℕ)) (sym : Str) (v v' : FitEntry) (s p : List XR) : Prop where
  read : readmeNpz ms sym = .ok (v', s, p)
  numS : v'.numS = v.numS
  numP : v'.numP = v.numP
  coeffs : List.Forall₂ ReadsAs v'.coeffs v.coeffs
  exps : List.Forall₂ ReadsAs v'.exps v.exps
  lenS : s.length = v.numS
  lenP : p.length = v.numP
  both : s ++ p = v'.exps

theorem archive_same {ps : List (JEntry × NEntry)} (hok : ∀ p ∈ ps, npzOk p.1 p.2 = true)
    (hs : (ps.map Prod.fst).map JEntry.sym = symbols.take 54) {p : JEntry × NEntry} (hp : p ∈ ps) {f : DFit}
    (hf : p.1.scan = some f) (hg : f.Good) :
    ∃ v' s q c' e', SameIn (npzMembers (ps.map Prod.snd)) p.1.sym f.entry v' s q ∧ Usable v' c' e' ∧
      List.Forall₂ Close c' (f.cs.map pv) ∧ List.Forall₂ Close e' (f.es.map pv) := by
  obtain ⟨h1, h2, h3⟩ := archive_sound hok hs hp hf hg
  obtain ⟨a1, a2, a3⟩ := near_list h2 fun x hx => (hg.posC x hx).1
  obtain ⟨b1, b2, b3⟩ := near_list h3 hg.posE
  have l2 := h2.length_eq
  have l3 := h3.length_eq
  have m2 := hg.lenC
  have m3 := hg.lenE
  have pos : ∀ {l l' : List ℝ}, List.Forall₂ Close l l' → ∀ x ∈ l, 0 < x := by
    intro l l' h
    induction h with
    | nil => simp
    | cons hx _ ih =>
      intro y hy
      rcases List.mem_cons.mp hy with rfl | hy
      · exact hx.1
      · exact ih y hy
  refine ⟨_, _, _, p.2.cs.map reF, p.2.es.map reF,
    ⟨h1, rfl, rfl, a2, b2, ?_, ?_, List.take_append_drop _ _⟩, ⟨a1, b1, ?_, ?_, pos a3, pos b3⟩, a3, b3⟩
  · simp only [List.length_take, List.length_map, DFit.entry]
    omega
  · simp only [List.length_drop, List.length_map, DFit.entry]
    omega
  · simp only [List.length_map]
    omega
  · simp only [List.length_map]
    omega

theorem fpiNpz_eq : Data.fpiNpz = npzMembers ((Data.npz.map fun p => (p.1.1, p.2.1)).map Prod.snd) := by
  unfold Data.fpiNpz
  rw [List.map_map]
  rfl

theorem slsqpNpz_eq : Data.slsqpNpz = npzMembers ((Data.npz.map fun p => (p.1.2, p.2.2)).map Prod.snd) := by
  unfold Data.slsqpNpz
  rw [List.map_map]
  rfl

theorem fpi_ok : ∀ p ∈ Data.npz.map (fun p => (p.1.1, p.2.1)), npzOk p.1 p.2 = true := by
  intro p hp
  obtain ⟨q, hq, rfl⟩ := List.mem_map.mp hp
  have := Data.npz_ok q hq
  rw [Bool.and_eq_true] at this
  exact this.1

theorem slsqp_ok : ∀ p ∈ Data.npz.map (fun p => (p.1.2, p.2.2)), npzOk p.1 p.2 = true := by
  intro p hp
  obtain ⟨q, hq, rfl⟩ := List.mem_map.mp hp
  have := Data.npz_ok q hq
  rw [Bool.and_eq_true] at this
  exact this.2

theorem fpi_fst : (Data.npz.map fun p => (p.1.1, p.2.1)).map Prod.fst = Data.fits.map fun p => p.2.1 := by
  have := congrArg (List.map Prod.fst) npz_fits
  rw [List.map_map, List.map_map] at this
  rw [List.map_map]
  exact this

theorem slsqp_fst : (Data.npz.map fun p => (p.1.2, p.2.2)).map Prod.fst = Data.fits.map fun p => p.2.2 := by
  have := congrArg (List.map Prod.snd) npz_fits
  rw [List.map_map, List.map_map] at this
  rw [List.map_map]
  exact this

theorem fpi_archive {jload : Str → Py (List (Str × FitEntry))} (hj : ReadsFits jload) {sym : Str} {z : ℕ}
    (hz : HasZ sym z) (h54 : z ≤ 54) :
    ∃ data v v' s p c e c' e', jload Data.fpiText = .ok data ∧ fitOf data sym = .ok v ∧ v.numS ≠ 0 ∧ Usable v c e ∧
      SameIn Data.fpiNpz sym v v' s p ∧ Usable v' c' e' ∧ List.Forall₂ Close c' c ∧ List.Forall₂ Close e' e := by
  obtain ⟨p, hp, hpz⟩ := fits_mem hz.1 h54
  obtain ⟨s1, -, s, u, f, g, -, -, h3, -, h5, -⟩ := fits_sound hp
  have hsym : p.2.1.sym = sym := hasZ_sym s1 (hpz ▸ hz)
  have hm : p.2.1 ∈ (Data.npz.map fun p => (p.1.1, p.2.1)).map Prod.fst := by
    rw [fpi_fst]
    exact List.mem_map.mpr ⟨p, hp, rfl⟩
  obtain ⟨q, hq, hqe⟩ := List.mem_map.mp hm
  obtain ⟨v', s, t, c', e', k1, k2, k3, k4⟩ := archive_same fpi_ok (by rw [fpi_fst]; exact fits_fpi_sym) hq
    (hqe ▸ h3) h5
  rw [hqe, hsym, ← fpiNpz_eq] at k1
  refine ⟨_, f.entry, v', s, t, _, _, c', e', fpi_load hj, ?_, h5.some, usable_of h5, k1, k2, k3, k4⟩
  have := fitOf_mem (es := Data.fits.map fun p => p.2.1) (by rw [fits_fpi_sym]; exact symbols_nodup54)
    (List.mem_map.mpr ⟨p, hp, rfl⟩)
  rw [hsym] at this
  rw [this]
  simp only [entryOf, h3]

theorem slsqp_archive {jload : Str → Py (List (Str × FitEntry))} (hj : ReadsFits jload) {sym : Str} {z : ℕ}
    (hz : HasZ sym z) (h54 : z ≤ 54) :
    ∃ data v v' s p c e c' e', jload Data.slsqpText = .ok data ∧ fitOf data sym = .ok v ∧ v.numS ≠ 0 ∧ Usable v c e ∧
      SameIn Data.slsqpNpz sym v v' s p ∧ Usable v' c' e' ∧ List.Forall₂ Close c' c ∧ List.Forall₂ Close e' e := by
  obtain ⟨p, hp, hpz⟩ := fits_mem hz.1 h54
  obtain ⟨-, s2, s, u, f, g, -, -, -, h4, -, h6, -⟩ := fits_sound hp
  have hsym : p.2.2.sym = sym := hasZ_sym s2 (hpz ▸ hz)
  have hm : p.2.2 ∈ (Data.npz.map fun p => (p.1.2, p.2.2)).map Prod.fst := by
    rw [slsqp_fst]
    exact List.mem_map.mpr ⟨p, hp, rfl⟩
  obtain ⟨q, hq, hqe⟩ := List.mem_map.mp hm
  obtain ⟨v', s, t, c', e', k1, k2, k3, k4⟩ := archive_same slsqp_ok (by rw [slsqp_fst]; exact fits_slsqp_sym) hq
    (hqe ▸ h4) h6
  rw [hqe, hsym, ← slsqpNpz_eq] at k1
  refine ⟨_, g.entry, v', s, t, _, _, c', e', slsqp_load hj, ?_, h6.some, usable_of h6, k1, k2, k3, k4⟩
  have := fitOf_mem (es := Data.fits.map fun p => p.2.2) (by rw [fits_slsqp_sym]; exact symbols_nodup54)
    (List.mem_map.mpr ⟨p, hp, rfl⟩)
  rw [hsym] at this
  rw [this]
  simp only [entryOf, h4]

/-- The moments of the model with the values of the archive. -/
theorem archive_moments {ms : List (Str × List ℕ)} {sym : Str} {v v' : FitEntry} {s p : List XR} {c e c' e' : List ℝ}
    {Q M : ℝ} (hn : v.numS ≠ 0) (hu : Usable v c e) (hs : SameIn ms sym v v' s p) (hu' : Usable v' c' e')
    (hc : List.Forall₂ Close c' c) (he : List.Forall₂ Close e' e) (hm : FitMoments v Q M) :
    ∃ Q' M', FitMoments v' Q' M' ∧ |Q' - Q| ≤ Q' / 2 ^ 53 ∧ |M' - M| ≤ M' / 2 ^ 51 := by
  obtain ⟨e1, e2⟩ := hm.unique (fitMoments_usable hu hn)
  have h' := fitMoments_usable hu' (by rw [hs.numS]; exact hn)
  refine ⟨_, _, h', ?_, ?_⟩
  · rw [e1]
    exact close_sum hc
  · rw [e2, hs.numS]
    exact close_momOf hc he

/-! ### C140 -/

/-- **C140**.  The archives `kl_fpi_results.npz` and `kl_slsqp_results.npz`, read as shown in README.md, have for
hydrogen to xenon the same numbers of functions as the files `.json`, and coefficients and exponents that are the
doubles closest to the decimals in those files.  The two printed arrays are the exponents of the s-type and of the
p-type functions. -/
theorem C140_same (jload : Str → Py (List (Str × FitEntry))) (hj : ReadsFits jload) (sym : Str) (z : ℕ)
    (hz : HasZ sym z) (h54 : z ≤ 54) :
    (∃ data v v' s p, jload Data.fpiText = .ok data ∧ fitOf data sym = .ok v ∧ SameIn Data.fpiNpz sym v v' s p) ∧
    ∃ data v v' s p, jload Data.slsqpText = .ok data ∧ fitOf data sym = .ok v ∧ SameIn Data.slsqpNpz sym v v' s p := by
  obtain ⟨data, v, v', s, p, c, e, c', e', h1, h2, -, -, h5, -⟩ := fpi_archive hj hz h54
  obtain ⟨data2, v2, v2', s2, p2, c2, e2, c2', e2', k1, k2, -, -, k5, -⟩ := slsqp_archive hj hz h54
  exact ⟨⟨data, v, v', s, p, h1, h2, h5⟩, data2, v2, v2', s2, p2, k1, k2, k5⟩

/-- **C140** (models, first archive).  The model with the values in `kl_fpi_results.npz` is positive, integrates to the
number of electrons up to a factor `1 ± 5e-11`, and its mean square radius is the one of the Hartree-Fock density up to
a factor `1 ± 2.1e-5`. -/
theorem C140_fpi (sym : Str) (z : ℕ) (hz : HasZ sym z) (h54 : z ≤ 54) (d : DataFile) (hd : d ∈ Data.bundled)
    (hdz : d.z = z) (hdc : d.charge = .neutral) :
    ∃ v s p c e Q M, readmeNpz Data.fpiNpz sym = .ok (v, s, p) ∧ Usable v c e ∧ FitMoments v Q M ∧
      |Q - z| ≤ 5e-11 * z ∧ SlaterMomentIs d fun M₀ => |M - M₀| ≤ 2.1e-5 * M₀ := by
  obtain ⟨data, v, v', s, p, c, e, c', e', h1, h2, h3, h4, h5, h6, h7, h8⟩ := fpi_archive readFits_reads hz h54
  obtain ⟨data2, v2, c2, e2, Q, M, k1, k2, -, k4, k5, k6⟩ := C101_fpi readFits readFits_reads sym z hz h54 d hd hdz hdc
  obtain rfl := Except.ok.inj (h1.symm.trans k1)
  obtain rfl := Except.ok.inj (h2.symm.trans k2)
  obtain ⟨Q', M', m1, m2, m3⟩ := archive_moments h3 h4 h5 h6 h7 h8 k4
  refine ⟨v', s, p, c', e', Q', M', h5.read, h6, m1, ?_, k6.mono fun M₀ hM => ?_⟩
  · have hz0 : (1 : ℝ) ≤ z := by exact_mod_cast hz.1
    rw [abs_le] at k5 m2 ⊢
    constructor <;> linarith
  · rw [abs_le] at hM m3 ⊢
    constructor <;> linarith

/-- **C140** (models, second archive).  The same for `kl_slsqp_results.npz`, with the accuracy `3.1e-6` for both
integrals except for the elements named in C102, where the mean square radius is too large. -/
theorem C140_slsqp (sym : Str) (z : ℕ) (hz : HasZ sym z) (h54 : z ≤ 54) (d : DataFile) (hd : d ∈ Data.bundled)
    (hdz : d.z = z) (hdc : d.charge = .neutral) :
    ∃ v s p c e Q M, readmeNpz Data.slsqpNpz sym = .ok (v, s, p) ∧ Usable v c e ∧ FitMoments v Q M ∧
      |Q - z| ≤ 3.1e-6 * z ∧
      (z ∉ [20, 44, 50, 51, 54] → SlaterMomentIs d fun M₀ => |M - M₀| ≤ 3.1e-6 * M₀) ∧
      (z ∈ [20, 44, 50, 51, 54] → SlaterMomentIs d fun M₀ => 999 * M₀ ≤ M) := by
  obtain ⟨data, v, v', s, p, c, e, c', e', h1, h2, h3, h4, h5, h6, h7, h8⟩ := slsqp_archive readFits_reads hz h54
  obtain ⟨data2, v2, c2, e2, Q, M, k1, k2, -, k4, k5, k6, k7⟩ := slsqp_sound readFits_reads hz h54 hd hdz hdc
  obtain rfl := Except.ok.inj (h1.symm.trans k1)
  obtain rfl := Except.ok.inj (h2.symm.trans k2)
  obtain ⟨Q', M', m1, m2, m3⟩ := archive_moments h3 h4 h5 h6 h7 h8 k4
  have hM' : 0 ≤ M' := by
    have := (abs_nonneg _).trans m3
    linarith
  refine ⟨v', s, p, c', e', Q', M', h5.read, h6, m1, ?_, fun h => (k6 h).mono fun M₀ hM => ?_,
    fun h => (k7 h).mono fun M₀ hM => ?_⟩
  · have hz0 : (1 : ℝ) ≤ z := by exact_mod_cast hz.1
    rw [abs_le] at k5 m2 ⊢
    constructor <;> linarith
  · rw [abs_le] at hM m3 ⊢
    constructor <;> linarith
  · rw [abs_le] at m3
    linarith

/-- **C140** (other names).  Other names raise `KeyError`. -/
theorem C140_other (sym : Str) (hs : ∀ z ≤ 54, ¬ HasZ sym z) :
    readmeNpz Data.fpiNpz sym = raise .keyError ∧ readmeNpz Data.slsqpNpz sym = raise .keyError := by
  have h54 : ∀ p ∈ Data.fits, p.1.z ≤ 54 := by
    intro p hp
    have : p.1.z ∈ Data.fits.map (fun p => p.1.z) := List.mem_map.mpr ⟨p, hp, rfl⟩
    rw [fits_z, List.mem_range'_1] at this
    omega
  have key : ∀ q ∈ Data.npz, q.2.1.sym ≠ sym ∧ q.2.2.sym ≠ sym := by
    intro q hq
    have h1 : q.1 ∈ Data.fits.map fun p => p.2 := by
      rw [← npz_fits]
      exact List.mem_map.mpr ⟨q, hq, rfl⟩
    obtain ⟨p, hp, hpe⟩ := List.mem_map.mp h1
    have h2 := Data.npz_ok q hq
    rw [Bool.and_eq_true] at h2
    unfold npzOk at h2
    rw [Bool.and_eq_true, Bool.and_eq_true, beq_iff_eq, beq_iff_eq] at h2
    rw [← h2.1.1, ← h2.2.1, ← hpe]
    exact ⟨fun h => hs _ (h54 p hp) (h ▸ (fits_sound hp).1), fun h => hs _ (h54 p hp) (h ▸ (fits_sound hp).2.1)⟩
  constructor
  · refine readmeNpz_none fun e he => ?_
    obtain ⟨q, hq, rfl⟩ := List.mem_map.mp he
    exact (key q hq).1
  · refine readmeNpz_none fun e he => ?_
    obtain ⟨q, hq, rfl⟩ := List.mem_map.mp he
    exact (key q hq).2

/-! ### Examples -/

/-- The example in README.md. -/
example : ∃ v s p, readmeNpz Data.slsqpNpz "be".toList = .ok (v, s, p) ∧ s ++ p = v.exps := by
  obtain ⟨-, data, v, v', s, p, -, -, h⟩ := C140_same readFits readFits_reads "be".toList 4
    ⟨by norm_num, by decide +kernel⟩ (by norm_num)
  exact ⟨v', s, p, h.read, h.both⟩

/-- Names are in lower case. -/
example : readmeNpz Data.fpiNpz "Be".toList = raise .keyError ∧ readmeNpz Data.slsqpNpz "Be".toList = raise .keyError :=
  C140_other "Be".toList (by
    intro z hz h
    have hm : "Be".toList ∈ symbols := List.mem_of_getElem? h.2
    exact absurd hm (by decide +kernel))

/-- Beryllium in the first archive. -/
example : ∃ v s p c e Q M d, readmeNpz Data.fpiNpz "be".toList = .ok (v, s, p) ∧ Usable v c e ∧ FitMoments v Q M ∧
    |Q - 4| ≤ 2e-10 ∧ d ∈ Data.bundled ∧ d.z = 4 ∧ SlaterMomentIs d fun M₀ => |M - M₀| ≤ 2.1e-5 * M₀ := by
  obtain ⟨d, hd, hz, hc⟩ := bundled_neutral (z := 4) (by norm_num) (by norm_num)
  obtain ⟨v, s, p, c, e, Q, M, h1, h2, h3, h4, h5⟩ := C140_fpi "be".toList 4 ⟨by norm_num, rfl⟩ (by norm_num) d hd hz hc
  refine ⟨v, s, p, c, e, Q, M, d, h1, h2, h3, ?_, hd, hz, h5⟩
  norm_num at h4 ⊢
  exact h4

/-- Beryllium and calcium in the second archive. -/
example : (∃ v s p Q M d, readmeNpz Data.slsqpNpz "be".toList = .ok (v, s, p) ∧ FitMoments v Q M ∧ d.z = 4 ∧
      SlaterMomentIs d fun M₀ => |M - M₀| ≤ 3.1e-6 * M₀) ∧
    ∃ v s p Q M d, readmeNpz Data.slsqpNpz "ca".toList = .ok (v, s, p) ∧ FitMoments v Q M ∧ d.z = 20 ∧
      SlaterMomentIs d fun M₀ => 999 * M₀ ≤ M := by
  obtain ⟨d, hd, hz, hc⟩ := bundled_neutral (z := 4) (by norm_num) (by norm_num)
  obtain ⟨d', hd', hz', hc'⟩ := bundled_neutral (z := 20) (by norm_num) (by norm_num)
  obtain ⟨v, s, p, c, e, Q, M, h1, -, h3, -, h5, -⟩ := C140_slsqp "be".toList 4 ⟨by norm_num, rfl⟩ (by norm_num) d hd hz hc
  obtain ⟨v', s', p', c', e', Q', M', k1, -, k3, -, -, k6⟩ := C140_slsqp "ca".toList 20 ⟨by norm_num, rfl⟩ (by norm_num)
    d' hd' hz' hc'
  exact ⟨⟨v, s, p, Q, M, d, h1, h3, hz, h5 (by decide)⟩, v', s', p', Q', M', d', k1, k3, hz', k6 (by decide)⟩

/-- A double that is not the closest one to 1, and one that is. -/
example : f64 0x3ff0000000000000 = XR.fin 1 ∧ ¬ ReadsAs (f64 0x3ff0000000000001) (XR.fin 1) := by
  have h1 : f64 0x3ff0000000000000 = XR.fin 1 := by
    unfold f64
    norm_num
  refine ⟨h1, ?_⟩
  rintro ⟨w, a, r, -, -, h3, h4, h5⟩
  have ha : a ≠ 1 := by
    rintro rfl
    unfold f64 at h3
    norm_num at h3
  obtain rfl : (1 : ℝ) = r := by simpa using h4
  have := h5 0x3ff0000000000000 (by norm_num) 1 h1 (Ne.symm ha)
  rw [sub_self, abs_zero] at this
  exact absurd this (not_lt.mpr (abs_nonneg _))

end
end BFit
