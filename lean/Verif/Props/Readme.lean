import Verif.Model.Readme
import Verif.Props.Notebooks
import Verif.Props.Fits
import Verif.Props.Display
import Verif.Props.Constructed

/-! C139: the examples in README.md. -/

namespace BFit

open Real Classical

noncomputable section

theorem FPI.init_model {g : Grid} {d : List XR} {m : GModel} {mask : XR} {T : Option XR} {s : Bool} {F : FPI}
    (h : FPI.init g d m mask T s = .ok F) : F.model = m := by
  unfold FPI.init at h
  split at h
  · cases h
  · rename_i G hG
    have hg : G.model = m := by
      unfold Fit.init raise at hG
      split_ifs at hG
      split at hG
      · injection hG with hG
        subst hG
        rfl
      · split at hG
        · cases hG
        · injection hG with hG
          subst hG
          rfl
    split at h
    · cases h
    · unfold raise at h
      simp only at h
      split_ifs at h
      injection h with h
      subst h
      exact hg

theorem trapW_pos_of_lt {x : List ℝ} (hx : x.Pairwise (· < ·)) (h2 : 2 ≤ x.length) (i : ℕ) (hi : i < x.length) :
    0 < vec (trapW x) i := by
  have hinj : ∀ a b, a < x.length → b < x.length → vec x a = vec x b → a = b := by
    have hlt : ∀ a b, a < b → b < x.length → vec x a < vec x b := by
      intro a b hab hb
      have := List.pairwise_iff_getElem.mp hx a b (hab.trans hb) hb hab
      simpa [vec, List.getD_eq_getElem?_getD, hb, hab.trans hb] using this
    intro a b ha hb h
    rcases lt_trichotomy a b with hab | hab | hab
    · exact absurd h (hlt a b hab hb).ne
    · exact hab
    · exact absurd h (hlt b a hab ha).ne'
  have hm : ∀ j, j < x.length → vec x j ∈ x := by
    intro j hj
    rw [vec, List.getD_eq_getElem?_getD, List.getElem?_eq_getElem hj]
    exact List.getElem_mem hj
  have hu : ∃ u ∈ x, u ≠ vec x i := by
    rcases Nat.eq_zero_or_pos i with rfl | h
    · exact ⟨_, hm 1 (by omega), fun h => by have := hinj 1 0 (by omega) (by omega) h; omega⟩
    · exact ⟨_, hm 0 (by omega), fun h => by have := hinj 0 i (by omega) hi h; omega⟩
  obtain ⟨j, hj, h3, h4⟩ := trapWAux_pos (hx.imp fun h => h.le) 0 le_rfl (hm i hi) (.inr hu)
  rw [hinj j i hj hi h3] at h4
  exact h4

/-- The objects of steps 1 and 2. -/
theorem readme_objects : ∃ (pts : List ℝ) (m : Atomic), pts.length = 100 ∧ pts[0]? = some 0 ∧ pts.getLast? = some 50 ∧
    (∀ i u v, pts[i]? = some u → pts[i + 1]? = some v → v - u = 50 / 99) ∧ pts.Pairwise (· < ·) ∧
    uniformRadialGrid (.int 100) (.float (XR.fin 0)) (.float (XR.fin 50)) = .ok ⟨fins pts⟩ ∧
    Atomic.init (.arr (.one (fins pts))) .none (.int 5) (.int 0) true = .ok m ∧
    ∀ d, readmeFit d = FPI.init (.radial ⟨fins pts⟩) d (.atom m) (XR.fin 0) none false := by
  obtain ⟨pts, h1, h2, h3, h4, h5, h6, -⟩ := C04_uniform_points 100 (by norm_num) (.int 100) (.float (XR.fin 0))
    (.float (XR.fin 50)) 0 50 (by norm_num) (by rw [isInt_iff]; rfl) (by rw [isNumber_iff]; rfl)
    (by rw [isNumber_iff]; rfl)
  obtain ⟨m, hm, -⟩ := C124_radial pts none 5 0 (by norm_num) true false (fun _ => 0) (fun _ _ => le_rfl)
  refine ⟨pts, m, by exact_mod_cast h2, h3, h4 (by norm_num), fun i u v hu hv => ?_, h6, h1, hm, fun d => ?_⟩
  · rw [h5 i u v hu hv]
    norm_num
  · unfold readmeFit
    rw [h1]
    simp only
    have hm' : Atomic.init (.arr (.one (fins pts))) .none (.int 5) (.int 0) true = .ok m := hm
    rw [hm']

/-- Step 3 for densities that are not zero. -/
theorem readme_fit {pts : List ℝ} {m : Atomic} (h1 : pts.length = 100) (h5 : pts.Pairwise (· < ·))
    (h7 : Atomic.init (.arr (.one (fins pts))) .none (.int 5) (.int 0) true = .ok m) {f : List ℝ} (hl : f.length = 100)
    (hn : ∀ x ∈ f, 0 ≤ x) (hx : ∃ x ∈ f, x ≠ 0) :
    ∃ F, FPI.init (.radial ⟨fins pts⟩) (fins f) (.atom m) (XR.fin 0) none false = .ok F ∧
      0 < ∑ i ∈ Finset.range 100, vec (trapW pts) i * vec f i ∧
      IsFPI F true (atomShape (pts.map fun r => |r|) 5 0) 100 (vec (trapW pts)) (vec f) 0
        (∑ i ∈ Finset.range 100, vec (trapW pts) i * vec f i) := by
  obtain ⟨m', hm', hfit⟩ := C124_radial pts none 5 0 (by norm_num) true false (vec f) (fun i _ => vec_nonneg hn i)
  have hm'' : Atomic.init (.arr (.one (fins pts))) .none (.int 5) (.int 0) true = .ok m' := hm'
  rw [h7, Except.ok.injEq] at hm''
  subst hm''
  obtain ⟨x, hx, hx0⟩ := hx
  obtain ⟨j, hj, rfl⟩ := List.getElem_of_mem hx
  have hpos : 0 < ∑ i ∈ Finset.range 100, vec (trapW pts) i * vec f i := by
    refine Finset.sum_pos' (fun i hi => mul_nonneg (trapW_pos_of_lt h5 (by omega) i (by
      rw [h1]; exact Finset.mem_range.mp hi)).le (vec_nonneg hn i)) ⟨j, Finset.mem_range.mpr (by omega), ?_⟩
    refine mul_pos (trapW_pos_of_lt h5 (by omega) j (by omega)) ?_
    rw [vec, List.getD_eq_getElem?_getD, List.getElem?_eq_getElem hj]
    exact lt_of_le_of_ne (hn _ hx) (Ne.symm hx0)
  have ht : tab 100 (vec f) = f := by
    apply List.ext_getElem (by simp [tab, hl])
    intro i h h'
    simp [tab, vec, List.getD_eq_getElem?_getD, h']
  obtain ⟨F, e1, e2⟩ := hfit.fpi 0 none (by simpa [h1] using hpos.ne') (by simp)
  simp only [h1, ht, Option.map_none, Bool.false_eq_true, if_false, mul_one, Option.getD_none, sub_zero] at e1 e2
  exact ⟨F, e1, hpos, e2⟩

/-- **C139** (as written).  The example in README.md ends with an exception and prints nothing, for every array
`density`: the starting coefficients are four numbers for five functions.  For an array of 100 non-negative numbers, not
all zero, the exception is the ValueError of `run`. -/
theorem C139_stops (density : List XR) :
    (∃ e, readmeRun readmeC0 density = ([], .error (.raised e))) ∧
    ∀ f : List ℝ, density = fins f → f.length = 100 → (∀ x ∈ f, 0 ≤ x) → (∃ x ∈ f, x ≠ 0) →
      (∃ F, readmeFit density = .ok F) ∧ readmeRun readmeC0 density = ([], .error (.raised .valueError)) := by
  obtain ⟨pts, m, h1, h2, h3, h4, h5, h6, h7, h8⟩ := readme_objects
  have key : ∀ F, readmeFit density = .ok F → readmeRun readmeC0 density = ([], .error (.raised .valueError)) := by
    intro F hF
    have hF' := hF
    rw [h8] at hF'
    have hmod := FPI.init_model hF'
    have hnb : F.model.nbasis = 5 := by
      rw [hmod]
      obtain ⟨p, co, ra, s, q, -, a2, a3, -, -, -, -, -, rfl⟩ := init_inv h7
      simp only [PyObj.asInt?, Option.some.injEq] at a2 a3
      subst a2 a3
      rfl
    unfold readmeRun FPI.runD
    rw [hF]
    simp only [hnb]
    rw [if_pos (by simp [ND.vec, readmeC0])]
    rfl
  constructor
  · cases hF : readmeFit density with
    | error e => exact ⟨e, by unfold readmeRun; rw [hF]⟩
    | ok F => exact ⟨_, key F hF⟩
  · rintro f rfl hl hn hx
    obtain ⟨F, e1, -, -⟩ := readme_fit h1 h5 h7 hl hn hx
    have hF : readmeFit (fins f) = .ok F := by rw [h8, e1]
    exact ⟨⟨F, hF⟩, key F hF⟩

/-- **C139** (with five starting coefficients).  If `c0` is five positive numbers, the example runs to its end for every
array of 100 non-negative numbers of which one other than the first, at the origin, is positive: `fun` has a last entry,
which is printed; at least one and at most 1000 updates are made, each with a row in the output; the coefficients and
exponents are five positive numbers each, and the sum of the coefficients is at most the integral of the density over
the grid, which is not the spherical one. -/
theorem C139_runs (c0 : List ℝ) (hc : c0.length = 5) (hc0 : ∀ a ∈ c0, 0 < a) (f : List ℝ) (hl : f.length = 100)
    (hn : ∀ x ∈ f, 0 ≤ x) (i : ℕ) (hi : 1 ≤ i) (x : ℝ) (hx : f[i]? = some x) (hx0 : x ≠ 0) :
    ∃ (g : RadialGrid) (rows : List Line) (r : FPIResult) (v : XR) (c e : List ℝ) (I : ℝ),
      uniformRadialGrid (.int 100) (.float (XR.fin 0)) (.float (XR.fin 50)) = .ok g ∧
      g.integrate (ND.vec (fins f)) = .ok (XR.fin I) ∧
      readmeRun c0 (fins f) = ([.rule, .heading, .rule] ++ rows ++
        [.rule, .success r.success, .time, .coeffs r.coeffs, .exps r.exps], .ok (r, v)) ∧
      1 ≤ rows.length ∧ rows.length ≤ 1000 ∧ r.fun_.length = rows.length ∧ r.fun_.getLast? = some v ∧
      r.coeffs = fins c ∧ r.exps = fins e ∧ c.length = 5 ∧ e.length = 5 ∧ (∀ a ∈ c, 0 < a) ∧ (∀ a ∈ e, 0 < a) ∧
      c.sum ≤ I := by
  obtain ⟨pts, m, h1, h2, h3, h4, h5, h6, h7, h8⟩ := readme_objects
  obtain ⟨hi100, hxe⟩ := List.getElem?_eq_some_iff.mp hx
  have hxm : x ∈ f := hxe ▸ List.getElem_mem hi100
  obtain ⟨F, e1, hI, hF⟩ := readme_fit h1 h5 h7 hl hn ⟨x, hxm, hx0⟩
  have hfi : 0 < vec f i := by
    rw [vec, List.getD_eq_getElem?_getD, hx]
    exact lt_of_le_of_ne (hn _ hxm) (Ne.symm hx0)
  have hpi : vec pts i ≠ 0 := by
    have := List.pairwise_iff_getElem.mp h5 0 i (by omega) (by omega) (by omega)
    obtain ⟨h0, h0'⟩ := List.getElem?_eq_some_iff.mp h2
    rw [h0'] at this
    rw [vec, List.getD_eq_getElem?_getD, List.getElem?_eq_getElem (by omega : i < pts.length)]
    exact this.ne'
  have hW : ∀ i < 100, 0 < vec (trapW pts) i := fun i hi => trapW_pos_of_lt h5 (by omega) i (by omega)
  have hs : (atomShape (pts.map fun r => |r|) 5 0).Sees 100 (vec (trapW pts)) (vec f) := by
    intro k _
    refine ⟨i, by omega, hW i (by omega), hfi, ?_⟩
    simp only [atomShape]
    have : vec (pts.map fun r => |r|) i = |vec pts i| := by
      simp [vec, List.getD_eq_getElem?_getD, (by omega : i < pts.length)]
    rw [this]
    exact abs_ne_zero.mpr hpi
  obtain ⟨r, n, cs, es, r1, r2, r3, r4, r5, r6, r7⟩ := fit_history hF (fun i hi => (hW i hi).le) hI hs
    (fun i _ => vec_nonneg hn i) ⟨true, true, 1000, XR.fin 1e-6, XR.fin 1e-6, XR.fin 1e-6⟩ rfl c0 readmeE0 hc
    rfl hc0 (by norm_num [readmeE0])
  have hne := run_updates r1 (by norm_num) rfl rfl
  obtain ⟨tr, rows, t1, t2, -⟩ := C137_fpi F _ _ _ r r1
  have hlen := r3.len
  have hlen' := t1.len
  have hn1 : 1 ≤ n := by
    have := List.length_pos_of_ne_nil hne
    omega
  have hlast := r3.last
  simp only [Prod.mk.injEq] at hlast
  obtain ⟨l1, l2, l3, l4⟩ := r6 n le_rfl
  have hsum := r7 (n - 1) (by omega)
  rw [Nat.sub_add_cancel hn1] at hsum
  have hfl : r.fun_.length = n := by rw [r3.fun_, List.length_map, hlen]
  obtain ⟨v, hv⟩ : ∃ v, r.fun_.getLast? = some v := by
    cases hg : r.fun_.getLast? with
    | some v => exact ⟨v, rfl⟩
    | none =>
      rw [List.getLast?_eq_none_iff] at hg
      rw [hg] at hfl
      simp at hfl
      omega
  refine ⟨_, rows, r, v, cs n, es n, _, h6, ?_, ?_, by omega, by simp at r2; omega, by omega, hv, hlast.1.symm,
    hlast.2.symm, l1, l2, l3, l4, hsum⟩
  · rw [integrate_fins _ _ (by omega), trapezoid_eq_wsum _ _ (by omega),
      wsum_eq_range_sum _ _ (by rw [trapW_length]; omega), trapW_length, h1]
    rfl
  · unfold readmeRun
    rw [h8, e1]
    simp only
    have q := C137_fpi_result F (.arr (ND.vec (fins c0))) (.arr (ND.vec (fins readmeE0)))
      ⟨true, true, 1000, XR.fin 1e-6, XR.fin 1e-6, XR.fin 1e-6⟩ true
    rw [r1] at q
    rcases hD : F.runD (.arr (ND.vec (fins c0))) (.arr (ND.vec (fins readmeE0)))
      ⟨true, true, 1000, XR.fin 1e-6, XR.fin 1e-6, XR.fin 1e-6⟩ true with ⟨out, res⟩
    rw [hD] at q t2
    simp only at q t2
    subst q t2
    simp only [hv]

/-! ### The integral of a fitted model -/

/-- The grid has its ends at 0 and 100. -/
theorem readme_grid : ∃ pts : List ℝ,
    clenshawRadialGrid (.int 4) (.int 10000) (.int 899) (.seq (fins [50, 75, 100])) (.bool true) = .ok ⟨fins pts⟩ ∧
    pts.Pairwise (· ≤ ·) ∧ (∀ r ∈ pts, 0 ≤ r ∧ r ≤ 100) ∧
    ∃ hne : pts ≠ [], pts.head hne = 0 ∧ pts.getLast hne = 100 := by
  obtain ⟨pts, h1, h2, h3, h4⟩ := C05_clenshaw_points 4 (by norm_num) 10000 899 (.seq (fins [50, 75, 100])) [50, 75, 100]
    (.inr rfl) true
  obtain ⟨a1, a2, a3⟩ := clenshaw_spec_ranges 4 (by norm_num) 10000 899 true
  have hr : ∀ r ∈ pts, 0 ≤ r ∧ r ≤ 100 := by
    intro r hr
    rw [h4.mem_iff, List.mem_append, List.mem_append] at hr
    rcases hr with (hr | hr) | hr
    · have := a1 r hr
      norm_num at this
      constructor <;> linarith
    · have := a2 r hr
      constructor <;> linarith
    · simp only [List.mem_cons, List.not_mem_nil, or_false] at hr
      rcases hr with rfl | rfl | rfl <;> norm_num
  have h0 : (0 : ℝ) ∈ pts := by
    rw [h4.mem_iff, List.mem_append, List.mem_append]
    exact .inl (.inl (a3.mpr ⟨rfl, by norm_num⟩))
  have h100 : (100 : ℝ) ∈ pts := by
    rw [h4.mem_iff]
    simp
  have hne : pts ≠ [] := List.ne_nil_of_mem h0
  refine ⟨pts, h1, h3, hr, hne, le_antisymm ?_ (hr _ (List.head_mem hne)).1,
    le_antisymm (hr _ (List.getLast_mem hne)).2 ?_⟩
  · cases pts with
    | nil => simp at h0
    | cons a l =>
      rcases List.mem_cons.mp h0 with h | h
      · exact h.symm.le
      · exact (List.pairwise_cons.mp h3).1 _ h
  · have hd := List.dropLast_append_getLast hne
    rw [← hd] at h3 h100
    rcases List.mem_append.mp h100 with h | h
    · exact (List.pairwise_append.mp h3).2.2 _ h _ (by simp)
    · simp only [List.mem_singleton] at h
      exact h.le

theorem fitModel_usable {v : FitEntry} {c e : List ℝ} (hv : Usable v c e) (hs : v.numS + v.numP ≠ 0) (rs : List ℝ) :
    fitModel (fins rs) v = .ok (fins (rs.map (atomDensity v.numS v.numP true c e))) := by
  obtain ⟨-, m, h1, h2, h3⟩ := C18_radii_1d rs 0 v.numS v.numP hs true
  have := evaluate_fins h2 _ _ hv.lenC hv.lenE (fun _ a ha => (hv.posE a ha).le) false
  unfold fitModel
  rw [h1]
  simp only
  rw [hv.coeffs, hv.exps, this, h3]
  simp only [List.map_map, Function.comp_def, atomDensity_abs]

/-- **C139** (the integral).  What the example prints as the spherical integral of a fitted model is the integral of
`m - r - (2 + pi)`: the integral of the model along the radial axis minus `5000 + 100 (2 + pi)`. -/
theorem C139_integral (v : FitEntry) (c e : List ℝ) (hv : Usable v c e) (hs : v.numS + v.numP ≠ 0) :
    ∃ (g : RadialGrid) (m : List XR) (I : ℝ),
      clenshawRadialGrid (.int 4) (.int 10000) (.int 899) (.seq (fins [50, 75, 100])) (.bool true) = .ok g ∧
      fitModel g.points v = .ok m ∧ g.integrate (ND.vec m) = .ok (XR.fin I) ∧ 0 ≤ I ∧
      readmeIntegral v = .ok (XR.fin (I - (5000 + 100 * (2 + π)))) := by
  obtain ⟨pts, h1, h2, h3, hne, h4, h5⟩ := readme_grid
  have hm := fitModel_usable hv hs pts
  set F := atomDensity v.numS v.numP true c e with hF
  have hF0 : ∀ r, 0 ≤ F r := by
    intro r
    refine Finset.sum_nonneg fun k hk => mul_nonneg (vec_of_mem hv.lenC hv.posC k (Finset.mem_range.mp hk)).le
      (basisFn_nonneg _ _ _ _ _ fun _ => (vec_of_mem hv.lenE hv.posE k (Finset.mem_range.mp hk)).le)
  obtain ⟨I, G, l1, l2, l3⟩ := C01_linear pts (pts.map F) (pts.map fun r => -(2 + π) + -1 * r) 1 1 (by simp) (by simp)
  rw [C02_exact_for_lines pts hne, h4, h5] at l2
  simp only [Except.ok.injEq, XR.fin.injEq] at l2
  refine ⟨⟨fins pts⟩, _, I, h1, hm, l1, ?_, ?_⟩
  · rw [integrate_fins _ _ (by simp), Except.ok.injEq, XR.fin.injEq] at l1
    rw [← l1, trapezoid_eq_wsum _ _ (by simp), wsum_eq_range_sum _ _ (by simp [trapW_length])]
    refine Finset.sum_nonneg fun i _ => mul_nonneg (getD_nonneg (trapW_nonneg pts h2) i) (getD_nonneg ?_ i)
    intro x hx
    obtain ⟨r, -, rfl⟩ := List.mem_map.mp hx
    exact hF0 r
  · unfold readmeIntegral
    rw [h1]
    simp only
    rw [hm]
    simp only
    have e1 : (List.zipWith (· - ·) (((fins (pts.map F)).map (· - XR.fin 4)).map (· - XR.fin π)) (fins pts)).map
        (· - -XR.fin 2) = List.zipWith (fun u v => XR.fin 1 * u + XR.fin 1 * v) (fins (pts.map F))
          (fins (pts.map fun r => -(2 + π) + -1 * r)) := by
      simp only [fins, List.map_map, List.zipWith_map, List.zipWith_self, Function.comp_def]
      apply List.map_congr_left
      intro r _
      simp only [XR.sub_fin, XR.neg_fin, XR.mul_fin, XR.add_fin]
      congr 1
      ring
    rw [e1, l3, ← l2]
    congr 2
    ring

/-! ### Beryllium -/

/-- A bound for `c * e ** 1.5`. -/
def peak (c e : ℕ × ℕ) : ℚ :=
  (c.1 : ℚ) / 10 ^ c.2 * ((e.1 : ℚ) / 10 ^ e.2) *
    (((e.1 : ℚ) / 10 ^ e.2 + (Nat.sqrt (e.1 / 10 ^ e.2) + 1 : ℕ) ^ 2) / (2 * (Nat.sqrt (e.1 / 10 ^ e.2) + 1 : ℕ)))

/-- The density of the fit for beryllium at the nucleus. -/
def peakOk (f : DFit) : Bool := f.np == 0 && decide ((List.zipWith peak f.cs f.es).sum ≤ 240)

theorem be_peak : (match Data.fits[3]? with
    | some p => decide (p.1.z = 4) && match p.2.1.scan with | some f => peakOk f | none => false
    | none => false) = true := by
  decide +kernel

theorem peak_sound {c e : ℕ × ℕ} : pv c * (pv e * √(pv e)) ≤ (peak c e : ℝ) := by
  have hc : 0 ≤ pv c := by unfold pv; positivity
  have he : 0 ≤ pv e := by unfold pv; positivity
  set s : ℕ := Nat.sqrt (e.1 / 10 ^ e.2) + 1 with hs
  have hs0 : (0 : ℝ) < s := by exact_mod_cast Nat.succ_pos _
  have h1 : √(pv e) ≤ (pv e + s ^ 2) / (2 * s) := by
    rw [le_div_iff₀ (by positivity)]
    nlinarith [sq_nonneg (√(pv e) - s), Real.sq_sqrt he]
  have h2 : (peak c e : ℝ) = pv c * pv e * ((pv e + s ^ 2) / (2 * s)) := by
    unfold peak pv
    push_cast [hs]
    rfl
  rw [h2, mul_assoc]
  exact mul_le_mul_of_nonneg_left (mul_le_mul_of_nonneg_left h1 he) hc

theorem sBasis_le {a : ℝ} (ha : 0 ≤ a) (r : ℝ) : sBasis true a r ≤ a * √a / 5 := by
  unfold sBasis
  simp only [if_true]
  have h1 : (a / π) ^ (3 / 2 : ℝ) = a * √a / (π * √π) := by
    rw [Real.div_rpow ha pi_pos.le, show (3 / 2 : ℝ) = 1 + 1 / 2 by norm_num]
    rw [Real.rpow_add' ha (by norm_num), Real.rpow_add' pi_pos.le (by norm_num), Real.rpow_one, Real.rpow_one,
      ← Real.sqrt_eq_rpow, ← Real.sqrt_eq_rpow]
  have h2 : (5 : ℝ) ≤ π * √π := by
    have h3 := Real.pi_gt_three
    have h4 : (1.7 : ℝ) ≤ √π := Real.le_sqrt_of_sq_le (by norm_num; linarith)
    nlinarith
  have h5 : exp (-a * r ^ 2) ≤ 1 := by
    rw [Real.exp_le_one_iff]
    nlinarith [mul_nonneg ha (sq_nonneg r)]
  have h6 : 0 ≤ a * √a := by positivity
  rw [h1]
  calc a * √a / (π * √π) * exp (-a * r ^ 2) ≤ a * √a / (π * √π) * 1 :=
        mul_le_mul_of_nonneg_left h5 (div_nonneg h6 (by linarith))
    _ ≤ a * √a / 5 := by
        rw [mul_one]
        exact div_le_div_of_nonneg_left h6 (by norm_num) h2

/-- The sum of the bounds is a bound. -/
theorem peaks_sound (cs es : List (ℕ × ℕ)) (r : ℝ) :
    ∑ k ∈ Finset.range cs.length, (cs.map pv).getD k 0 * sBasis true ((es.map pv).getD k 0) r ≤
      ((List.zipWith peak cs es).sum : ℝ) / 5 := by
  induction cs generalizing es with
  | nil => simp
  | cons c cs ih =>
    have hz : sBasis true 0 r = 0 := by simp [sBasis]
    cases es with
    | nil => simp [hz]
    | cons e es =>
      rw [List.length_cons, Finset.sum_range_succ']
      have := ih es
      have he : 0 ≤ pv e := by unfold pv; positivity
      have hc : 0 ≤ pv c := by unfold pv; positivity
      have h1 := mul_le_mul_of_nonneg_left (sBasis_le he r) hc
      have h2 := peak_sound (c := c) (e := e)
      simp only [List.map_cons, List.getD_cons_succ, List.getD_cons_zero, List.zipWith_cons_cons, List.sum_cons,
        Rat.cast_add]
      linarith

/-- **C139** (beryllium).  With the bundled values for beryllium, the element of the example, the printed number is
less than -700. -/
theorem C139_beryllium (jload : Str → Py (List (Str × FitEntry))) (hj : ReadsFits jload) :
    ∃ data v x, jload Data.fpiText = .ok data ∧ fitOf data "be".toList = .ok v ∧
      readmeIntegral v = .ok (XR.fin x) ∧ x < -700 := by
  have hb := be_peak
  cases hp : Data.fits[3]? with
  | none => rw [hp] at hb; cases hb
  | some p =>
    rw [hp] at hb
    simp only [Bool.and_eq_true, decide_eq_true_eq] at hb
    obtain ⟨hz, hb⟩ := hb
    have hm : p ∈ Data.fits := List.mem_of_getElem? hp
    obtain ⟨s1, -, -, -, f, -, -, -, h3, -, h5, -⟩ := fits_sound hm
    rw [h3] at hb
    simp only [peakOk, Bool.and_eq_true, beq_iff_eq, decide_eq_true_eq] at hb
    obtain ⟨hnp, hpk⟩ := hb
    have hv := usable_of h5
    obtain ⟨g, m, I, g1, g2, g3, -, g5⟩ := C139_integral f.entry _ _ hv (by
      have := h5.some
      simp only [DFit.entry]
      omega)
    have hsym : p.2.1.sym = "be".toList := hasZ_sym s1 (hz ▸ ⟨by norm_num, rfl⟩)
    refine ⟨_, f.entry, _, fpi_load hj, ?_, g5, ?_⟩
    · have := fitOf_mem (es := Data.fits.map fun p => p.2.1) (by rw [fits_fpi_sym]; exact symbols_nodup54)
        (List.mem_map.mpr ⟨p, hm, rfl⟩)
      rw [hsym] at this
      rw [this]
      simp only [entryOf, h3]
    · obtain ⟨pts, k1, k2, k3, hne, k4, k5⟩ := readme_grid
      rw [k1, Except.ok.injEq] at g1
      subst g1
      rw [fitModel_usable hv (by
        have := h5.some
        simp only [DFit.entry]
        omega), Except.ok.injEq] at g2
      subst g2
      have hF : ∀ r, atomDensity f.entry.numS f.entry.numP true (f.cs.map pv) (f.es.map pv) r ≤ 48 := by
        intro r
        have e1 : atomDensity f.entry.numS f.entry.numP true (f.cs.map pv) (f.es.map pv) r =
            ∑ k ∈ Finset.range f.cs.length, (f.cs.map pv).getD k 0 * sBasis true ((f.es.map pv).getD k 0) r := by
          unfold atomDensity
          rw [h5.lenC]
          refine Finset.sum_congr rfl fun k hk => ?_
          have := Finset.mem_range.mp hk
          have hk' : k < f.entry.numS := by
            simp only [DFit.entry] at this ⊢
            omega
          rw [basisFn, if_pos hk']
        have e2 := peaks_sound f.cs f.es r
        have e3 : ((List.zipWith peak f.cs f.es).sum : ℝ) ≤ 240 := by exact_mod_cast hpk
        linarith
      rw [integrate_fins _ _ (by simp), Except.ok.injEq, XR.fin.injEq, trapezoid_eq_wsum _ _ (by simp),
        wsum_eq_range_sum _ _ (by simp [trapW_length]), trapW_length] at g3
      have hI : I ≤ 4800 := by
        rw [← g3]
        have hs := trapW_sum_le (B := 100) k3 hne
        calc _ ≤ ∑ i ∈ Finset.range pts.length, vec (trapW pts) i * 48 := by
              refine Finset.sum_le_sum fun i hi => mul_le_mul_of_nonneg_left ?_ (vec_nonneg (trapW_nonneg pts k2) i)
              have hi := Finset.mem_range.mp hi
              simp only [List.getD_eq_getElem?_getD, List.getElem?_map, List.getElem?_eq_getElem hi, Option.map_some,
                Option.getD_some]
              exact hF _
          _ ≤ 4800 := by
              rw [← Finset.sum_mul]
              linarith
      have := Real.pi_gt_three
      linarith

/-! ### Examples -/

/-- The constant density 1. -/
example : readmeRun readmeC0 (fins (List.replicate 100 1)) = ([], .error (.raised .valueError)) :=
  ((C139_stops _).2 (List.replicate 100 1) rfl (by simp) (by
    intro x hx
    rw [List.eq_of_mem_replicate hx]
    norm_num) ⟨1, by simp, by norm_num⟩).2

/-- An array of the wrong length is an error as well. -/
example : ∃ e, readmeRun readmeC0 (fins [1, 2]) = ([], .error (.raised e)) := (C139_stops _).1

/-- Five ones and the constant density 1. -/
example : ∃ out r v, readmeRun [1, 1, 1, 1, 1] (fins (List.replicate 100 1)) = (out, .ok (r, v)) := by
  obtain ⟨g, rows, r, v, c, e, I, -, -, h, -⟩ := C139_runs [1, 1, 1, 1, 1] rfl (by norm_num) (List.replicate 100 1)
    (by simp) (by
      intro x hx
      rw [List.eq_of_mem_replicate hx]
      norm_num) 7 (by norm_num) 1 (by simp) (by norm_num)
  exact ⟨_, r, v, h⟩

/-- A model of one s-type and one p-type function. -/
example : ∃ I : ℝ, 0 ≤ I ∧ readmeIntegral ⟨1, 1, fins [1, 2], fins [3, 4]⟩ =
    .ok (XR.fin (I - (5000 + 100 * (2 + π)))) := by
  obtain ⟨g, m, I, -, -, -, h1, h2⟩ := C139_integral ⟨1, 1, fins [1, 2], fins [3, 4]⟩ [1, 2] [3, 4]
    ⟨rfl, rfl, rfl, rfl, by norm_num, by norm_num⟩ (by norm_num)
  exact ⟨I, h1, h2⟩

example : ∃ data v x, readFits Data.fpiText = .ok data ∧ fitOf data "be".toList = .ok v ∧
    readmeIntegral v = .ok (XR.fin x) ∧ x < 0 := by
  obtain ⟨data, v, x, h1, h2, h3, h4⟩ := C139_beryllium readFits readFits_reads
  exact ⟨data, v, x, h1, h2, h3, by linarith⟩

end
end BFit
