import Verif.Props.Tables

/-! Property C131: the script for densities of a database. -/

namespace BFit

open Real Classical

noncomputable section

/-! ### Values that are not numbers -/

theorem trapz_cons (a b p q : XR) (l m : List XR) :
    trapz (a :: b :: l) (p :: q :: m) = (q - p) * (b + a) / XR.fin 2 + trapz (b :: l) (q :: m) := by
  simp [trapz]

theorem trapz_nan {y x : List XR} (hl : y.length = x.length) (h2 : 2 ≤ x.length) (hy : XR.nan ∈ y) :
    trapz y x = XR.nan := by
  induction x generalizing y with
  | nil => simp at h2
  | cons p x ih =>
    match y, x, hl, h2, hy with
    | [_], [], _, h2, _ => exact absurd h2 (by simp)
    | [_], _ :: _, hl, _, _ => exact absurd hl (by simp)
    | a :: b :: l, q :: m, hl, h2, hy =>
      rw [trapz_cons]
      rcases List.mem_cons.mp hy with rfl | hy
      · simp
      · match l, m, hl with
        | [], [], _ =>
          simp only [List.mem_singleton] at hy
          subst hy
          simp
        | c :: l, r :: m, hl =>
          rw [ih (y := b :: c :: l) (by simpa using hl) (by simp) hy]
          simp

/-- The integral of `y log y` is not a number if a value of the density is zero. -/
theorem sphIntegrate_entropy_nan {x : List ℝ} {d : List ℝ} (hl : d.length = x.length) (h2 : 2 ≤ x.length)
    (h0 : (0 : ℝ) ∈ d) : sphIntegrate ⟨fins x⟩ ((fins d).map fun y => y * XR.log y) = .ok XR.nan := by
  unfold sphIntegrate bcast
  rw [if_pos (by simp [hl])]
  simp only [RadialGrid.integrate]
  rw [if_neg (by simp [ND.vec, hl])]
  refine congrArg _ (trapz_nan (by simp [ND.vec, hl]) (by simpa using h2) ?_)
  obtain ⟨i, hi, hi0⟩ := List.mem_iff_getElem.mp h0
  refine List.mem_iff_getElem.mpr ⟨i, by simp [ND.vec, hl]; omega, ?_⟩
  simp [ND.vec, fins, hi0, XR.fin_mul_ninf]

theorem relativeErrors_kl {g : RadialGrid} {d : List XR} {p : Perf} {a b c k : XR}
    (h : relativeErrors g d p = .ok (a, b, c, k)) :
    ∃ ik, sphIntegrate g (d.map fun y => y * XR.log y) = .ok ik ∧ k = p.kl / ik := by
  unfold relativeErrors at h
  split at h
  · exact absurd h (by simp)
  · split at h
    · exact absurd h (by simp)
    · split at h
      · exact absurd h (by simp)
      · split at h
        · exact absurd h (by simp)
        · next ik hk =>
          simp only [Except.ok.injEq, Prod.mk.injEq] at h
          exact ⟨ik, hk, h.2.2.2.symm⟩

/-! ### One element -/

theorem clipNegative_fins (pts : List ℝ) (t : ℝ → ℝ) :
    clipNegative (fins (pts.map t)) = fins (pts.map fun r => max (t r) 0) := by
  simp only [clipNegative, fins, List.map_map]
  refine List.map_congr_left fun r _ => ?_
  simp only [Function.comp_apply]
  by_cases h : t r < 0
  · rw [if_pos (by simpa using h), max_eq_right h.le]
  · rw [if_neg (by simpa using h), max_eq_left (not_lt.mp h)]

/-- The part of the script after the density has been computed. -/
theorem atomdbFit_ok {pts : List ℝ} (hp : pts.Pairwise (· ≤ ·)) (hB : ∀ r ∈ pts, 0 ≤ r ∧ r ≤ 100) {t : ℝ → ℝ}
    (h2 : 2 ≤ pts.length)
    (hi : ∃ i < pts.length, vec pts i ≠ 0 ∧ 0 < radW pts true i ∧ 0 < max (t (vec pts i)) 0)
    (ns np : ℕ) (hsp : ns + np ≠ 0) (z : ℤ) (hz : 0 < z) (c e : List ℝ) (hc : c.length = ns + np)
    (he : e.length = ns + np) (hcp : ∀ a ∈ c, 0 < a) (hep : ∀ a ∈ e, 0 < a) :
    ∃ row c' e' I m F, atomdbFit ⟨fins pts⟩ ns np (fins c) (fins e) (fins (pts.map t)) z = .ok row ∧
      row.coeffs = fins c' ∧
      row.exps = fins e' ∧ c'.length = ns + np ∧ e'.length = ns + np ∧ (∀ a ∈ c', 0 < a) ∧ (∀ a ∈ e', 0 < a) ∧
      integrateOn (.radial ⟨fins pts⟩) true (fins (pts.map fun r => max (t r) 0)) = .ok (XR.fin I) ∧ 0 < I ∧
      c'.sum ≤ z * (1 + 1.3e-11 / I) ∧ Atomic.init (.arr (.one (fins pts))) .none (.int ns) (.int np) true = .ok m ∧
      FPI.init (.radial ⟨fins pts⟩) (fins (pts.map fun r => max (t r) 0)) (.atom m) (XR.fin 1e-18) (some (XR.fin z))
        true = .ok F ∧
      F.goodness row.coeffs row.exps = .ok row.last ∧
      (∃ l1 linf ls M I2 : ℝ, row.l1 = XR.fin l1 ∧ 0 ≤ l1 ∧ row.linf = XR.fin linf ∧ 0 ≤ linf ∧
        row.ls = XR.fin ls ∧ 0 ≤ ls ∧ row.last.l1 = XR.fin (l1 * I) ∧ M ∈ pts.map t ∧ (∀ y ∈ pts.map t, y ≤ M) ∧
        row.last.linf = XR.fin (linf * M) ∧
        integrateOn (.radial ⟨fins pts⟩) true (fins (pts.map fun r => max (t r) 0 ^ 2)) = .ok (XR.fin I2) ∧ 0 < I2 ∧
        row.last.ls = XR.fin (ls * I2)) ∧
      ((∃ r ∈ pts, t r ≤ 0) → row.kl = XR.nan) ∧
      ((∀ r ∈ pts, 0 < t r) → ∃ k E : ℝ, row.last.kl = XR.fin k ∧
        integrateOn (.radial ⟨fins pts⟩) true (fins (pts.map fun r => t r * log (t r))) = .ok (XR.fin E) ∧
        (E ≠ 0 → row.kl = XR.fin (k / E))) := by
  have hz' : (0 : ℝ) < z := by exact_mod_cast hz
  have ht : ∀ r, 0 ≤ max (t r) 0 := fun r => le_max_right _ _
  obtain ⟨m, F, I, J, r, c', e', p, q1, q2, q3, q4, q5, r1, r2, r3, r4, r5, r6, r7, r8, k1, kg, k2, k3⟩ :=
    radial_run hp ht hi ns np hsp 1e-18 (some (z : ℝ)) (by
      intro a ha
      simp only [Option.some.injEq] at ha
      rw [← ha]; exact hz') c e hc he hcp hep tableOpts rfl (by simp [tableOpts]) ⟨_, rfl⟩ ⟨_, rfl⟩
  obtain ⟨v, a, b, d, -, -, ha, ha0, hb, hb0, hd, hd0⟩ := k2
  obtain ⟨l1, linf, ls, I', M, I2, kl, w1, w2, w3, w4, w5, w6, w7, w8, w9, w10, w11, w12⟩ :=
    relativeErrors_ok hp ht hi ha hb hd ha0 hb0 hd0
  rw [q3] at w5
  simp only [Except.ok.injEq, XR.fin.injEq] at w5
  subst w5
  obtain ⟨ik, j1, j2⟩ := relativeErrors_kl w1
  simp only [Option.map_some] at q2
  rw [List.map_map] at w10
  have hM : 0 < M := by
    obtain ⟨i, hil, -, -, hti⟩ := hi
    refine lt_of_lt_of_le hti (w8 _ (List.mem_map.mpr ⟨vec pts i, ?_, rfl⟩))
    simp [vec, List.getD_eq_getElem?_getD, hil]
  refine ⟨⟨r.coeffs, r.exps, r.success, p, XR.fin l1, XR.fin linf, XR.fin ls, kl⟩, c', e', I, m, F, ?_, r2, r3, r4, r5,
    r6, r7, q3, q4, ?_, q1, q2, kg, ⟨l1, linf, ls, M, I2, rfl, w2, rfl, w3, rfl, w4, by rw [ha, w6], ?_, ?_,
    by rw [hb, w9], w10, w11, by rw [hd, w12]⟩, ?_, ?_⟩
  · unfold atomdbFit
    simp only [clipNegative_fins, inScript, q1]
    rw [q2]
    simp only
    rw [r1]
    simp only [k1, w1]
  · have hne : pts ≠ [] := by
      intro h
      simp [h] at h2
    have hJ := masked_le hp hB hne ht (by norm_num) q3 q5
    have hpi := pi_lt_d2
    have hJ' : J ≤ I + 1.3e-11 := by
      refine hJ.trans ?_
      nlinarith
    refine r8.trans ?_
    simp only [Option.getD_some]
    refine mul_le_mul_of_nonneg_left ?_ hz'.le
    rw [div_le_iff₀ q4, add_mul, div_mul_cancel₀ _ q4.ne']
    linarith
  · obtain ⟨x, hx, hxM⟩ := List.mem_map.mp w7
    rcases max_choice (t x) 0 with h | h
    · exact List.mem_map.mpr ⟨x, hx, by rw [← h]; exact hxM⟩
    · rw [h] at hxM
      exact absurd hM (by rw [← hxM]; exact lt_irrefl _)
  · intro y hy
    obtain ⟨x, hx, rfl⟩ := List.mem_map.mp hy
    exact (le_max_left _ _).trans (w8 _ (List.mem_map.mpr ⟨x, hx, rfl⟩))
  · rintro ⟨x, hx, hx0⟩
    rw [sphIntegrate_entropy_nan (by simp) h2 (List.mem_map.mpr ⟨x, hx, max_eq_right hx0⟩)] at j1
    simp only [Except.ok.injEq] at j1
    simp only
    rw [j2, ← j1, XR.div_nan]
  · intro hpos
    obtain ⟨k, hk⟩ := k3 fun x hx => lt_max_of_lt_left (hpos x hx)
    have e1 : (fins (pts.map fun r => max (t r) 0)).map (fun y => y * XR.log y) =
        fins (pts.map fun r => t r * log (t r)) := by
      simp only [fins, List.map_map]
      refine List.map_congr_left fun x hx => ?_
      simp only [Function.comp_apply]
      rw [max_eq_left (hpos x hx).le, XR.log_fin_of_pos (hpos x hx)]
      rfl
    rw [e1, sphIntegrate_fins] at j1
    simp only [Except.ok.injEq] at j1
    refine ⟨k, ∑ i ∈ Finset.range pts.length, radW pts true i * (t (vec pts i) * log (t (vec pts i))), hk, ?_,
      fun hE => ?_⟩
    · rw [← tab_map, (radW_quad pts true).fin]
    · simp only
      rw [j2, hk, ← j1, XR.div_fin_of_ne _ hE]

/-- The grid of the script: ascending, in `[0, 100]`, with at least 10000 different points. -/
theorem atomdb_grid (z : ℤ) (hz : 0 < z) :
    ∃ pts : List ℝ, clenshawRadialGrid (.int z) (.int 10000) (.int 899) .none (.bool true) = .ok ⟨fins pts⟩ ∧
      pts.Pairwise (· ≤ ·) ∧ 10000 ≤ pts.toFinset.card ∧ ∀ r ∈ pts, 0 ≤ r ∧ r ≤ 100 := by
  obtain ⟨pts, h1, h2, h3⟩ := C127_clenshaw z hz 10000 899 .none [] (.inl ⟨rfl, rfl⟩) true
  obtain ⟨pts', core, diffuse, g1, g2, -, -, g3, g4, -⟩ := C05_clenshaw_ranges z hz 10000 899
    .none [] (.inl ⟨rfl, rfl⟩) true
  simp only [Nat.cast_ofNat] at h1 g1
  rw [h1] at g1
  simp only [Except.ok.injEq, RadialGrid.mk.injEq] at g1
  have : pts = pts' := List.map_injective_iff.mpr (fun a b h => by simpa using h) g1
  subst this
  refine ⟨pts, h1, h2, h3, fun r hr => ?_⟩
  have hz' : (1 : ℝ) ≤ z := by exact_mod_cast hz
  rw [g2.mem_iff] at hr
  simp only [List.mem_append, List.not_mem_nil, or_false] at hr
  rcases hr with hr | hr
  · obtain ⟨a, b⟩ := g3 r hr
    refine ⟨a, b.trans ?_⟩
    rw [div_le_iff₀ (by positivity)]
    linarith
  · obtain ⟨a, b⟩ := g4 r hr
    exact ⟨a.le, by linarith⟩

/-- The database gives the values of the function `t` on the grid of the script for the element, and one of them
apart from the origin is positive. -/
def HasDensity (dens : Str → ℤ → List XR → Py (List XR)) (s : Str) (z mult : ℤ) (t : ℝ → ℝ) : Prop :=
  ∃ pts : List ℝ, clenshawRadialGrid (.int z) (.int 10000) (.int 899) .none (.bool true) = .ok ⟨fins pts⟩ ∧
    dens s mult (fins pts) = .ok (fins (pts.map t)) ∧ ∃ r ∈ pts, r ≠ 0 ∧ 0 < t r

/-- **C131** (element).  Whatever finite values the database gives for an element from hydrogen to xenon, if one of
them apart from the origin is positive, the pass of atomdb_db.py completes.  Negative values count as zero.  The fit has
positive coefficients and exponents; the coefficients add up to at most `z (1 + 1.3e-11 / I)` where `I` is the
integral of the density.  The last entry of `performance` is `goodness_of_fit` of these parameters, and the first three relative
errors are its entries divided by the integral, the maximum and the integral of the square.  The fourth is not a number
as soon as one value of the density on the grid is zero or negative; otherwise it is the divergence divided by the integral of
`rho log rho`, if that is not zero. -/
theorem C131_element (dens : Str → ℤ → List XR → Py (List XR)) (low : Str → Str) (hl : LowersAscii low)
    (tf : Str → Py XR) (ht : ReadsFloats tf) (fs : Str → Option (List Str)) (dir : Str)
    (hf : fs (dir ++ "data/ygbs".toList) = some Data.ugbsLines) (s : Str) (z : ℕ) (mult : ℤ) (hz : HasZ (low s) z)
    (hr : z ≤ 54) (t : ℝ → ℝ) (hd : HasDensity dens s z mult t) :
    ∃ pts row ugbs S P c e m F, ∃ I l1 linf ls M I2 : ℝ,
      clenshawRadialGrid (.int z) (.int 10000) (.int 899) .none (.bool true) = .ok ⟨fins pts⟩ ∧
      integrateOn (.radial ⟨fins pts⟩) true (fins (pts.map fun r => max (t r) 0)) = .ok (XR.fin I) ∧ 0 < I ∧
      ugbsExponents low tf fs (dir ++ "parse_ugbs.py".toList) (.str s) = .ok ugbs ∧
      ugbs "S".toList = some (fins S) ∧ ugbs "P".toList = some (fins P) ∧ S ≠ [] ∧
      atomdbRow dens low tf fs (dir ++ "parse_ugbs.py".toList) s z mult = .ok (S.length, row) ∧
      row.coeffs = fins c ∧ row.exps = fins e ∧ c.length = S.length + P.length ∧ e.length = S.length + P.length ∧
      (∀ a ∈ c, 0 < a) ∧ (∀ a ∈ e, 0 < a) ∧ c.sum ≤ z * (1 + 1.3e-11 / I) ∧
      Atomic.init (.arr (.one (fins pts))) .none (.int S.length) (.int P.length) true = .ok m ∧
      FPI.init (.radial ⟨fins pts⟩) (fins (pts.map fun r => max (t r) 0)) (.atom m) (XR.fin 1e-18) (some (XR.fin z))
        true = .ok F ∧
      F.goodness row.coeffs row.exps = .ok row.last ∧
      (row.l1 = XR.fin l1 ∧ 0 ≤ l1 ∧ row.linf = XR.fin linf ∧ 0 ≤ linf ∧ row.ls = XR.fin ls ∧ 0 ≤ ls ∧
        row.last.l1 = XR.fin (l1 * I) ∧ M ∈ pts.map t ∧ (∀ y ∈ pts.map t, y ≤ M) ∧
        row.last.linf = XR.fin (linf * M) ∧
        integrateOn (.radial ⟨fins pts⟩) true (fins (pts.map fun r => max (t r) 0 ^ 2)) = .ok (XR.fin I2) ∧ 0 < I2 ∧
        row.last.ls = XR.fin (ls * I2)) ∧
      ((∃ r ∈ pts, t r ≤ 0) → row.kl = XR.nan) ∧
      ((∀ r ∈ pts, 0 < t r) → ∃ k E : ℝ, row.last.kl = XR.fin k ∧
        integrateOn (.radial ⟨fins pts⟩) true (fins (pts.map fun r => t r * log (t r))) = .ok (XR.fin E) ∧
        (E ≠ 0 → row.kl = XR.fin (k / E))) := by
  have hz1 := hz.1
  have hz0 : (0 : ℤ) < (z : ℤ) := by exact_mod_cast hz1
  obtain ⟨pts, g1, g2, g3, g4⟩ := atomdb_grid (z : ℤ) hz0
  obtain ⟨pts', d1, d2, x, d3, d4, d5⟩ := hd
  rw [g1] at d1
  simp only [Except.ok.injEq, RadialGrid.mk.injEq] at d1
  have : pts = pts' := List.map_injective_iff.mpr (fun a b h => by simpa using h) d1
  subst this
  obtain ⟨u, hu, hne⟩ := Finset.exists_mem_ne (s := pts.toFinset) (by omega) x
  have hi := radial_index_of g2 (t := fun r => max (t r) 0) (fun r => le_max_right _ _) d3 d4
    (lt_max_of_lt_left d5).ne' ⟨u, List.mem_toFinset.mp hu, hne⟩ true
  obtain ⟨ugbs, S, P, u1, u2, u3, u4, u5, u6⟩ := table_start low hl tf ht fs dir hf s z hz hr 2
  have hlen : 0 < S.length + P.length := by
    have := List.length_pos_of_ne_nil u4
    omega
  have hzr : (0 : ℝ) < z := by exact_mod_cast hz1
  have hcard := pts.toFinset_card_le
  obtain ⟨row, c, e, I, m, F, w1, w2, w3, w4, w5, w6, w7, w8, w9, w10, wm, wF, wg, ⟨l1, linf, ls, M, I2, w11⟩, w12, w13⟩ :=
    atomdbFit_ok g2 g4 (by omega) hi S.length P.length (by omega) (z : ℤ) hz0
      (List.replicate (S.length + P.length) ((z : ℝ) / ((S.length + P.length : ℕ) : ℝ)))
      ((S ++ P).map fun x => x * 2) (by simp) (by simp) (by
        intro a ha
        rw [List.eq_of_mem_replicate ha]
        have : (0 : ℝ) < ((S.length + P.length : ℕ) : ℝ) := by exact_mod_cast hlen
        positivity) (by
        intro a ha
        obtain ⟨b, hb, rfl⟩ := List.mem_map.mp ha
        have := u5.1 b hb
        positivity)
  refine ⟨pts, row, ugbs, S, P, c, e, m, F, I, l1, linf, ls, M, I2, g1, w8,
    w9, u1, u2, u3, u4, ?_, w2, w3, w4, w5, w6, w7, by exact_mod_cast w10, wm, by exact_mod_cast wF, wg, w11, w12, w13⟩
  unfold atomdbRow
  rw [g1, u1]
  simp only [inScript]
  rw [u6]
  simp only
  rw [d2]
  simp only
  rw [w1]

/-! ### The script -/

theorem assignAll_of_not_mem (d : Str → Option Saved) (l : List (Str × Saved)) {k : Str}
    (h : ∀ p ∈ l, p.1 ≠ k) : assignAll d l k = d k := by
  induction l generalizing d with
  | nil => rfl
  | cons p l ih =>
    unfold assignAll at ih ⊢
    rw [List.foldl_cons, ih _ fun q hq => h q (List.mem_cons_of_mem _ hq)]
    exact if_neg fun h' => h p (by simp) h'.symm

theorem assignAll_of_mem (d : Str → Option Saved) {l : List (Str × Saved)} (hn : (l.map Prod.fst).Nodup)
    {p : Str × Saved} (h : p ∈ l) : assignAll d l p.1 = some p.2 := by
  induction l generalizing d with
  | nil => exact absurd h (by simp)
  | cons q l ih =>
    rw [List.map_cons, List.nodup_cons] at hn
    rcases List.mem_cons.mp h with rfl | h
    · have := assignAll_of_not_mem (fun k => if k = p.1 then some p.2 else d k) l (k := p.1) fun q hq hqp =>
        hn.1 (List.mem_map.mpr ⟨q, hq, hqp⟩)
      unfold assignAll at this ⊢
      rw [List.foldl_cons, this, if_pos rfl]
    · have := ih (fun k => if k = q.1 then some q.2 else d k) hn.2 h
      unfold assignAll at this ⊢
      rw [List.foldl_cons, this]

theorem assignAll_append (d : Str → Option Saved) (l l' : List (Str × Saved)) :
    assignAll d (l ++ l') = assignAll (assignAll d l) l' := List.foldl_append ..

/-- The passes of the loop up to the first that raises. -/
theorem atomdbLoop_split {pass : Str → ℤ → ℤ → Except ScriptErr (ℕ × TableRow)} {out : Str × ℤ × ℤ → ℕ × TableRow}
    {done rest : List (Str × ℤ × ℤ)} (h : ∀ p ∈ done, pass p.1 p.2.1 p.2.2 = .ok (out p))
    (d : Str → Option Saved) (file : Option (Str → Option Saved)) :
    ∃ d', d' = assignAll d (done.flatMap fun p => atomdbEntries p.1 (out p).1 (out p).2) ∧
      atomdbLoop pass (done ++ rest) d file = atomdbLoop pass rest d' (if done = [] then file else some d') := by
  induction done generalizing d file with
  | nil => exact ⟨d, rfl, rfl⟩
  | cons p done ih =>
    obtain ⟨s, z, mult⟩ := p
    obtain ⟨d', h1, h2⟩ := ih (fun q hq => h q (List.mem_cons_of_mem _ hq))
      (assignAll d (atomdbEntries s (out (s, z, mult)).1 (out (s, z, mult)).2))
      (some (assignAll d (atomdbEntries s (out (s, z, mult)).1 (out (s, z, mult)).2)))
    refine ⟨d', by rw [h1, List.flatMap_cons, assignAll_append], ?_⟩
    have h3 := h (s, z, mult) (by simp)
    simp only at h3
    rw [List.cons_append, atomdbLoop, h3]
    simp only
    rw [h2]
    congr 1
    by_cases hd : done = []
    · subst hd
      simp only [reduceIte, List.cons_ne_nil]
      rw [h1]
      rfl
    · simp [hd]

/-- The parts of the keys after the symbol. -/
def atomdbSuffixes : List Str :=
  ["_coeffs_s", "_exps_s", "_coeffs_p", "_exps_p", "_errors_4pir2", "_sucess", "_errors"].map String.toList

/-- The file has the results of a pass for the symbol `s` with `ns` functions of s-type. -/
structure HoldsRow (file : Str → Option Saved) (s : Str) (ns : ℕ) (row : TableRow) : Prop where
  coeffsS : file (s ++ "_coeffs_s".toList) = some (.arr (row.coeffs.take ns))
  expsS : file (s ++ "_exps_s".toList) = some (.arr (row.exps.take ns))
  coeffsP : file (s ++ "_coeffs_p".toList) = some (.arr (row.coeffs.drop ns))
  expsP : file (s ++ "_exps_p".toList) = some (.arr (row.exps.drop ns))
  last : file (s ++ "_errors_4pir2".toList) = some (.perf row.last)
  success : file (s ++ "_sucess".toList) = some (.flag row.success)
  errors : file (s ++ "_errors".toList) = some (.errors row.l1 row.linf row.ls row.kl)

theorem atomdb_keys_nodup : (atomdbItems.flatMap fun p => atomdbSuffixes.map (p.1 ++ ·)).Nodup := by
  decide +kernel

instance : Nonempty TableRow := ⟨⟨[], [], false, ⟨.nan, .nan, .nan, .nan, .nan⟩, .nan, .nan, .nan, .nan⟩⟩

/-- The loop over the first items. -/
theorem atomdb_prefix {pass : Str → ℤ → ℤ → Except ScriptErr (ℕ × TableRow)} {done rest : List (Str × ℤ × ℤ)}
    (hi : atomdbItems = done ++ rest) (h : ∀ p ∈ done, ∃ ns row, pass p.1 p.2.1 p.2.2 = .ok (ns, row)) :
    ∃ file, atomdbLoop pass atomdbItems (fun _ => none) none =
        atomdbLoop pass rest file (if done = [] then none else some file) ∧
      (∀ p ∈ done, ∃ ns row, pass p.1 p.2.1 p.2.2 = .ok (ns, row) ∧ HoldsRow file p.1 ns row) ∧
      ∀ k, (∀ p ∈ done, ∀ x ∈ atomdbSuffixes, k ≠ p.1 ++ x) → file k = none := by
  have h' : ∀ p, ∃ o : ℕ × TableRow, p ∈ done → pass p.1 p.2.1 p.2.2 = .ok o := by
    intro p
    by_cases hp : p ∈ done
    · obtain ⟨ns, row, hr⟩ := h p hp
      exact ⟨(ns, row), fun _ => hr⟩
    · exact ⟨(0, Classical.choice inferInstance), fun h => absurd h hp⟩
  choose out hout using h'
  obtain ⟨file, h1, h2⟩ := atomdbLoop_split (rest := rest) hout (fun _ => none) none
  have hkeys : ∀ p : Str × ℤ × ℤ, (atomdbEntries p.1 (out p).1 (out p).2).map Prod.fst =
      atomdbSuffixes.map (p.1 ++ ·) := fun _ => rfl
  have hnd : ((done.flatMap fun p => atomdbEntries p.1 (out p).1 (out p).2).map Prod.fst).Nodup := by
    rw [List.map_flatMap]
    simp only [hkeys]
    have := atomdb_keys_nodup
    rw [hi, List.flatMap_append] at this
    exact (List.nodup_append.mp this).1
  have hget : ∀ p ∈ done, ∀ q ∈ atomdbEntries p.1 (out p).1 (out p).2, file q.1 = some q.2 := by
    intro p hp q hq
    rw [h1]
    exact assignAll_of_mem _ hnd (List.mem_flatMap.mpr ⟨p, hp, hq⟩)
  refine ⟨file, by rw [hi]; exact h2, fun p hp => ⟨(out p).1, (out p).2, hout p hp, ?_⟩, fun k hk => ?_⟩
  · have hg := hget p hp
    simp only [atomdbEntries, sliceTo_nat, sliceFrom_nat] at hg
    exact ⟨hg (_, _) (by simp), hg (_, _) (by simp), hg (_, _) (by simp), hg (_, _) (by simp), hg (_, _) (by simp),
      hg (_, _) (by simp), hg (_, _) (by simp)⟩
  · rw [h1, assignAll_of_not_mem]
    intro q hq hqk
    obtain ⟨p, hp, hq⟩ := List.mem_flatMap.mp hq
    have := List.mem_map_of_mem (f := Prod.fst) hq
    rw [hkeys] at this
    obtain ⟨x, hx, hxe⟩ := List.mem_map.mp this
    exact hk p hp x hx (by rw [hxe, hqk])

theorem atomdb_items (low : Str → Str) (hl : LowersAscii low) :
    ∀ p ∈ atomdbItems, ∃ z : ℕ, p.2.1 = z ∧ HasZ (low p.1) z ∧ z ≤ 54 := by
  intro p hp
  have h : ∀ p ∈ atomdbItems, (∀ c ∈ p.1, c.toNat < 128) ∧ 1 ≤ p.2.1.toNat ∧ p.2.1.toNat ≤ 54 ∧
      p.2.1 = (p.2.1.toNat : ℤ) ∧ symbols[p.2.1.toNat - 1]? = some (p.1.map Char.toLower) := by decide +kernel
  obtain ⟨h1, h2, h3, h4, h5⟩ := h p hp
  exact ⟨p.2.1.toNat, h4, ⟨h2, by rw [hl _ h1]; exact h5⟩, h3⟩

/-- **C131** (script).  If the database has densities for the eight elements that are positive somewhere on the grids,
atomdb_db.py runs to its end.  The file then holds for each element seven entries, those of the pass for the element:
coefficients and exponents cut after the s-type functions, the last entry of `performance`, `success` and the relative
errors.  It holds nothing else. -/
theorem C131_script (dens : Str → ℤ → List XR → Py (List XR)) (low : Str → Str) (hl : LowersAscii low)
    (tf : Str → Py XR) (ht : ReadsFloats tf) (fs : Str → Option (List Str)) (dir : Str)
    (hf : fs (dir ++ "data/ygbs".toList) = some Data.ugbsLines)
    (hd : ∀ p ∈ atomdbItems, ∃ t, HasDensity dens p.1 p.2.1 p.2.2 t) :
    ∃ file, atomdb dens low tf fs (dir ++ "parse_ugbs.py".toList) = (none, some file) ∧
      (∀ p ∈ atomdbItems, ∃ ns row, atomdbRow dens low tf fs (dir ++ "parse_ugbs.py".toList) p.1 p.2.1 p.2.2 =
        .ok (ns, row) ∧ HoldsRow file p.1 ns row) ∧
      ∀ k, (∀ p ∈ atomdbItems, ∀ x ∈ atomdbSuffixes, k ≠ p.1 ++ x) → file k = none := by
  obtain ⟨file, h1, h2, h3⟩ := atomdb_prefix (rest := [])
    (pass := atomdbRow dens low tf fs (dir ++ "parse_ugbs.py".toList)) (List.append_nil _).symm (by
      intro p hp
      obtain ⟨t, hd⟩ := hd p hp
      obtain ⟨z, hz, hZ, h54⟩ := atomdb_items low hl p hp
      rw [hz] at hd ⊢
      obtain ⟨_, row, _, S, _, _, _, _, _, _, _, _, _, _, _, _, _, _, _, _, _, _, h, -⟩ :=
        C131_element dens low hl tf ht fs dir hf p.1 z p.2.2 hZ h54 t hd
      exact ⟨_, _, h⟩)
  refine ⟨file, ?_, h2, h3⟩
  unfold atomdb
  rw [h1]
  simp [atomdbLoop, atomdbItems]

/-- **C131** (interruption).  If a pass raises, the script ends with that exception, and the results of the passes before
it are in the file; there is no file if it is the first pass. -/
theorem C131_interrupted (dens : Str → ℤ → List XR → Py (List XR)) (low : Str → Str) (hl : LowersAscii low)
    (tf : Str → Py XR) (ht : ReadsFloats tf) (fs : Str → Option (List Str)) (dir : Str)
    (hf : fs (dir ++ "data/ygbs".toList) = some Data.ugbsLines) (done rest : List (Str × ℤ × ℤ)) (p : Str × ℤ × ℤ)
    (hi : atomdbItems = done ++ p :: rest) (hd : ∀ q ∈ done, ∃ t, HasDensity dens q.1 q.2.1 q.2.2 t)
    (pts : List ℝ) (hg : clenshawRadialGrid (.int p.2.1) (.int 10000) (.int 899) .none (.bool true) = .ok ⟨fins pts⟩)
    (err : PyErr) (he : dens p.1 p.2.2 (fins pts) = .error err) :
    ∃ file, atomdb dens low tf fs (dir ++ "parse_ugbs.py".toList) =
        (some (.raised err), if done = [] then none else some file) ∧
      (∀ q ∈ done, ∃ ns row, atomdbRow dens low tf fs (dir ++ "parse_ugbs.py".toList) q.1 q.2.1 q.2.2 =
        .ok (ns, row) ∧ HoldsRow file q.1 ns row) ∧
      ∀ k, (∀ q ∈ done, ∀ x ∈ atomdbSuffixes, k ≠ q.1 ++ x) → file k = none := by
  obtain ⟨file, h1, h2, h3⟩ := atomdb_prefix
    (pass := atomdbRow dens low tf fs (dir ++ "parse_ugbs.py".toList)) hi (by
      intro q hq
      obtain ⟨t, hd⟩ := hd q hq
      obtain ⟨z, hz, hZ, h54⟩ := atomdb_items low hl q (by rw [hi]; simp [hq])
      rw [hz] at hd ⊢
      obtain ⟨_, row, _, S, _, _, _, _, _, _, _, _, _, _, _, _, _, _, _, _, _, _, h, -⟩ :=
        C131_element dens low hl tf ht fs dir hf q.1 z q.2.2 hZ h54 t hd
      exact ⟨_, _, h⟩)
  refine ⟨file, ?_, h2, h3⟩
  obtain ⟨z, hz, hZ, h54⟩ := atomdb_items low hl p (by rw [hi]; simp)
  obtain ⟨ugbs, S, P, u1, u2, u3, u4, u5, u6⟩ := table_start low hl tf ht fs dir hf p.1 z hZ h54 2
  unfold atomdb
  rw [h1]
  obtain ⟨s, z', mult⟩ := p
  simp only at hz hg he u1
  subst hz
  have hrow : atomdbRow dens low tf fs (dir ++ "parse_ugbs.py".toList) s z mult = .error (.raised err) := by
    unfold atomdbRow
    rw [hg, u1]
    simp only [inScript]
    rw [u6]
    simp only
    rw [he]
  rw [atomdbLoop, hrow]

/-! ### Examples -/

/-- A database with the density `exp(-r)` for the elements of a list. -/
def expDatabase (known : List Str) (s : Str) (_ : ℤ) (x : List XR) : Py (List XR) :=
  if s ∈ known then .ok (x.map fun r => XR.exp (-r)) else raise .valueError

theorem expDatabase_has {known : List Str} {s : Str} (h : s ∈ known) (z mult : ℤ) (hz : 0 < z) :
    HasDensity (expDatabase known) s z mult fun r => exp (-r) := by
  obtain ⟨pts, g1, -, g3, -⟩ := atomdb_grid z hz
  obtain ⟨u, hu, hne⟩ := Finset.exists_mem_ne (s := pts.toFinset) (by omega) 0
  refine ⟨pts, g1, ?_, u, List.mem_toFinset.mp hu, hne, exp_pos _⟩
  rw [expDatabase, if_pos h]
  simp [fins, Function.comp_def]

/-- With all eight elements the script completes. -/
example : ∃ file, atomdb (expDatabase (atomdbItems.map Prod.fst)) (fun s => s.map Char.toLower)
      (fun w => .ok (.fin (readSci w))) exampleFiles "/x/parse_ugbs.py".toList = (none, some file) ∧
    (∃ b, file "Cl_sucess".toList = some (.flag b)) ∧ file "He_sucess".toList = none := by
  obtain ⟨file, h1, h2, h3⟩ := C131_script (expDatabase (atomdbItems.map Prod.fst)) (fun s => s.map Char.toLower)
    (fun _ _ => rfl) _ reads_floats_example exampleFiles "/x/".toList exampleFiles_hasData.ugbs (by
      intro p hp
      exact ⟨_, expDatabase_has (List.mem_map_of_mem hp) _ _ ((by decide : ∀ p ∈ atomdbItems, 0 < p.2.1) p hp)⟩)
  obtain ⟨ns, row, -, h4⟩ := h2 ("Cl".toList, 17, 2) (by decide)
  exact ⟨file, h1, ⟨_, h4.success⟩, h3 _ (by decide +kernel)⟩

/-- Without carbon the file holds the results of hydrogen. -/
example : ∃ file, atomdb (expDatabase ["H".toList]) (fun s => s.map Char.toLower)
      (fun w => .ok (.fin (readSci w))) exampleFiles "/x/parse_ugbs.py".toList =
        (some (.raised .valueError), some file) ∧
    (∃ b, file "H_sucess".toList = some (.flag b)) ∧ file "C_sucess".toList = none := by
  obtain ⟨pts, g1, -⟩ := atomdb_grid 6 (by norm_num)
  obtain ⟨file, h1, h2, h3⟩ := C131_interrupted (expDatabase ["H".toList]) (fun s => s.map Char.toLower)
    (fun _ _ => rfl) _ reads_floats_example exampleFiles "/x/".toList exampleFiles_hasData.ugbs
    [("H".toList, 1, 2)] (atomdbItems.drop 2) ("C".toList, 6, 3) rfl (by
      intro p hp
      rw [List.mem_singleton] at hp
      subst hp
      exact ⟨_, expDatabase_has (by simp) _ _ (by norm_num)⟩) pts g1 .valueError (by
      rw [expDatabase, if_neg (by decide)]; rfl)
  obtain ⟨ns, row, -, h4⟩ := h2 ("H".toList, 1, 2) (by decide)
  exact ⟨file, by simpa using h1, ⟨_, h4.success⟩, h3 _ (by decide +kernel)⟩

/-- A density that is clipped: the fit of hydrogen completes, and its fourth relative error is not a number. -/
example : ∃ ns row, atomdbRow (fun _ _ x => .ok (x.map fun r => r - XR.fin 1))
      (fun s => s.map Char.toLower) (fun w => .ok (.fin (readSci w))) exampleFiles "/x/parse_ugbs.py".toList "H".toList
      1 2 = .ok (ns, row) ∧ row.kl = XR.nan := by
  obtain ⟨pts, g1, -, -, g2⟩ := C05_clenshaw_points 1 (by norm_num) 10000 899 .none [] (.inl ⟨rfl, rfl⟩) true
  simp only [Nat.cast_ofNat] at g1
  have h0 : (0 : ℝ) ∈ pts := by
    rw [g2.mem_iff]
    simp only [List.append_nil, List.mem_append]
    left
    exact List.mem_map.mpr ⟨0, List.mem_range.mpr (by norm_num), by simp⟩
  have h25 : (25 : ℝ) ∈ pts := by
    rw [g2.mem_iff]
    simp only [List.append_nil, List.mem_append]
    right
    refine List.mem_map.mpr ⟨898, List.mem_range.mpr (by norm_num), ?_⟩
    have : π * ((898 + 1 : ℕ) : ℝ) / (2 * ((899 : ℕ) : ℝ)) = π / 2 := by
      push_cast
      ring
    rw [this, cos_pi_div_two]
    norm_num
  obtain ⟨pts', row, _, S, _, _, _, _, _, _, _, _, _, _, _, k1, -, -, -, -, -, -, k2, -, -, -, -, -, -, -, -, -, -, -, k3,
    -⟩ := C131_element (fun _ _ x => .ok (x.map fun r => r - XR.fin 1)) (fun s => s.map Char.toLower)
      (fun _ _ => rfl) _ reads_floats_example exampleFiles "/x/".toList exampleFiles_hasData.ugbs "H".toList 1 2
      ⟨le_rfl, by decide +kernel⟩ (by norm_num) (fun r => r - 1)
      ⟨pts, g1, by simp [fins, Function.comp_def], 25, h25, by norm_num, by norm_num⟩
  rw [Nat.cast_one, g1] at k1
  simp only [Except.ok.injEq, RadialGrid.mk.injEq] at k1
  have : pts = pts' := List.map_injective_iff.mpr (fun a b h => by simpa using h) k1
  subst this
  exact ⟨_, row, k2, k3 ⟨0, h0, by norm_num⟩⟩

end
end BFit
