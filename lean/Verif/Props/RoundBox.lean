import Verif.Model.RoundBox
import Verif.Props.RoundCubic
import Verif.Props.FromMolecule

/-!
C151: the origin and the shape of `CubicGrid.from_molecule` with `rotate=False` when every operation is rounded.
-/

namespace BFit

open Real Classical Finset

noncomputable section

section
variable {u : ℝ} (h0 : 0 ≤ u) (h1 : u < 1)
include h0 h1

theorem NearBy.list_sum {k : ℕ} {a b : List ℝ} (h : List.Forall₂ (Rel u k) a b) :
    NearBy u k a.sum b.sum (b.map fun y => |y|).sum := by
  induction h with
  | nil => simpa using (NearBy.refl h0 h1 0).mono h0 h1 (Nat.zero_le k) (by simp : |(0 : ℝ)| ≤ 0)
  | cons e _ ih => simpa using (NearBy.of_rel h0 h1 e).add h0 h1 ih

theorem Rel.list_sum {k : ℕ} {a b : List ℝ} (h : List.Forall₂ (Rel u k) a b) (hb : ∀ y ∈ b, 0 ≤ y) :
    Rel u k a.sum b.sum := by
  have hp : ∀ {a b : List ℝ}, List.Forall₂ (Rel u k) a b → (∀ y ∈ b, 0 ≤ y) →
      b.sum * (1 - u) ^ k ≤ a.sum ∧ a.sum * (1 - u) ^ k ≤ b.sum := by
    intro a b h
    induction h with
    | nil => simp
    | cons e _ ih =>
      intro hb
      have e' := e.bounds h0 h1 (hb _ (by simp))
      have ih' := ih fun y hy => hb y (by simp [hy])
      simp only [List.sum_cons]
      constructor <;> nlinarith [e'.1, e'.2, ih'.1, ih'.2]
  exact Rel.of_bounds h0 h1 (List.sum_nonneg hb) (hp h hb).1 (hp h hb).2

/-- The computed centre. -/
theorem RCentre.near {zs : List ℝ} {coords : List (Fin 3 → ℝ)} {com : Fin 3 → ℝ} (h : RCentre u zs coords com)
    (hlen : zs.length = coords.length) (hne : coords ≠ []) (hz : ∀ z ∈ zs, 0 < z) (d : Fin 3) :
    NearBy u (2 * coords.length) (com d) (chargeCentre zs coords d)
      ((List.zipWith (fun z (x : Fin 3 → ℝ) => |z * x d|) zs coords).sum / zs.sum) := by
  obtain ⟨T, hT, hd⟩ := h
  obtain ⟨t, S, ht, hS, hc⟩ := hd d
  obtain ⟨T', hT', rfl⟩ := hT.rel h0 h1
  obtain ⟨l, hl, rfl⟩ := hS.rel h0 h1
  have hl0 : 0 < coords.length := List.length_pos_iff.mpr hne
  have htl : t.length = coords.length := by
    rw [ht.length_eq, List.length_zipWith]; omega
  rw [htl] at hl
  rw [hlen] at hT'
  have tr : ∀ {a b c : List ℝ}, List.Forall₂ (Rel u (coords.length - 1)) a b → List.Forall₂ (Fl u) b c →
      List.Forall₂ (Rel u coords.length) a c := by
    intro a b c hab
    induction hab generalizing c with
    | nil => intro hbc; cases hbc; exact .nil
    | cons e _ ih =>
      intro hbc
      cases hbc with
      | cons f hbc => exact .cons ((e.trans h0 h1 (Rel.of_fl h0 h1 f)).mono h0 h1 (by omega)) (ih hbc)
  have n1 := NearBy.list_sum h0 h1 (tr hl ht)
  have r1 := Rel.list_sum h0 h1 hT' fun y hy => (hz y hy).le
  have n2 := (n1.div_rel h0 h1 r1).fl h0 h1 hc
  have hzs : 0 ≤ zs.sum := List.sum_nonneg fun y hy => (hz y hy).le
  rw [abs_of_nonneg hzs, List.map_zipWith] at n2
  exact n2.mono h0 h1 (by omega) le_rfl

/-- **C151** (shape).  The number of points in a direction.  The box has the requested length up to three rounding errors; the
number differs by at most one from the exact one unless it is of the order `1/(3u)`; it is the exact one if the exact quotient is
not within three rounding errors of an integer. -/
theorem C151_shape {hi lo ext sp : ℝ} {n : ℤ} (hl : lo ≤ hi) (he : 0 ≤ ext) (hs : 0 < sp) (h : RExtent u hi lo ext sp n) :
    0 ≤ n ∧ (hi - lo + 2 * ext) * (1 - u) ^ 3 ≤ n * sp ∧ (n - 1) * sp * (1 - u) ^ 3 < hi - lo + 2 * ext ∧
      ((hi - lo + 2 * ext) / sp * (1 / (1 - u) ^ 3 - 1) < 1 → |n - ⌈(hi - lo + 2 * ext) / sp⌉| ≤ 1) ∧
      ((⌈(hi - lo + 2 * ext) / sp⌉ - 1 : ℝ) < (hi - lo + 2 * ext) / sp * (1 - u) ^ 3 →
        (hi - lo + 2 * ext) / sp ≤ ⌈(hi - lo + 2 * ext) / sp⌉ * (1 - u) ^ 3 → n = ⌈(hi - lo + 2 * ext) / sp⌉) := by
  obtain ⟨l, s, q, h1', h2', h3', rfl⟩ := h
  have e1 := Rel.of_fl h0 h1 h1'
  have e1b := e1.bounds h0 h1 (by linarith)
  have k1 : (1 - u) ^ 1 ≤ 1 := pow_le_one₀ (by linarith) (by linarith)
  have e2 : Rel u 1 (l + 2 * ext) (hi - lo + 2 * ext) :=
    Rel.of_bounds h0 h1 (by linarith) (by nlinarith [e1b.1]) (by nlinarith [e1b.2])
  have e3 : Rel u 3 q ((hi - lo + 2 * ext) / sp) :=
    (Rel.of_fl h0 h1 h3').trans h0 h1 (((Rel.of_fl h0 h1 h2').trans h0 h1 e2).div h0 h1 (Rel.refl h0 h1 sp))
  have hL : 0 ≤ hi - lo + 2 * ext := by linarith
  have hq0 : 0 ≤ (hi - lo + 2 * ext) / sp := div_nonneg hL hs.le
  have b := e3.bounds h0 h1 hq0
  have hk : 0 < (1 - u) ^ 3 := pow_pos (by linarith) 3
  have hqs : (hi - lo + 2 * ext) / sp * sp = hi - lo + 2 * ext := div_mul_cancel₀ _ hs.ne'
  have hqq : 0 ≤ q := e3.nonneg h0 h1 hq0
  have hc1 := Int.le_ceil q
  have hc2 := Int.ceil_lt_add_one q
  generalize hQ : (hi - lo + 2 * ext) / sp = Q at *
  have hC1 := Int.le_ceil Q
  have hC2 := Int.ceil_lt_add_one Q
  refine ⟨Int.ceil_nonneg hqq, ?_, ?_, ?_, ?_⟩
  · rw [← hqs]
    calc Q * sp * (1 - u) ^ 3 = Q * (1 - u) ^ 3 * sp := by ring
      _ ≤ ⌈q⌉ * sp := by gcongr; linarith [b.1]
  · rw [← hqs]
    calc (⌈q⌉ - 1) * sp * (1 - u) ^ 3 = (⌈q⌉ - 1) * ((1 - u) ^ 3 * sp) := by ring
      _ < q * ((1 - u) ^ 3 * sp) := by
        apply mul_lt_mul_of_pos_right (by linarith) (by positivity)
      _ = q * (1 - u) ^ 3 * sp := by ring
      _ ≤ Q * sp := by gcongr; exact b.2
  · intro hlt
    have ha := e3.abs_sub h0 h1
    rw [abs_of_nonneg hq0, mul_comm] at ha
    have ha' := abs_lt.mp (ha.trans_lt hlt)
    have i1 : ⌈q⌉ < ⌈Q⌉ + 2 := by
      have : (⌈q⌉ : ℝ) < ⌈Q⌉ + 2 := by linarith
      exact_mod_cast this
    have i2 : ⌈Q⌉ < ⌈q⌉ + 2 := by
      have : (⌈Q⌉ : ℝ) < ⌈q⌉ + 2 := by linarith
      exact_mod_cast this
    rw [abs_le]
    omega
  · intro g1 g2
    rw [Int.ceil_eq_iff]
    refine ⟨g1.trans_le b.1, ?_⟩
    exact le_of_mul_le_mul_right (b.2.trans g2) hk

/-- The centre of charge of the absolute values of the coordinates. -/
def absCentre (zs : List ℝ) (coords : List (Fin 3 → ℝ)) (d : Fin 3) : ℝ :=
  (List.zipWith (fun z (x : Fin 3 → ℝ) => |z * x d|) zs coords).sum / zs.sum

/-- **C151** (origin).  The computed origin is the centre of charge minus half the length of the computed box, up to rounding
errors of the numbers that are added. -/
theorem C151_origin {zs : List ℝ} {coords : List (Fin 3 → ℝ)} {sp ext : ℝ} {o : Fin 3 → ℝ} {n : Fin 3 → ℤ}
    (hlen : zs.length = coords.length) (hne : coords ≠ []) (hz : ∀ z ∈ zs, 0 < z) (hs : 0 < sp)
    (h : RFromMolecule u zs coords sp ext o n) (d : Fin 3) :
    |o d - (chargeCentre zs coords d - n d * sp / 2)| ≤
      (1 / (1 - u) ^ (2 * coords.length + 2) - 1) * (absCentre zs coords d + |(n d : ℝ)| * sp / 2) := by
  obtain ⟨com, hc, hd⟩ := h
  obtain ⟨-, p, q, r, s, hp, hq, hr, hS, ho⟩ := hd d
  have n1 := hc.near h0 h1 hlen hne hz d
  have f := fun {v w : ℝ} (e : Fl u v w) => NearBy.of_rel h0 h1 (Rel.of_fl h0 h1 e)
  have n2 := hS.near3 h0 h1 (f hp) (f hq) (f hr)
  have hl0 : 0 < coords.length := List.length_pos_iff.mpr hne
  have n3 : NearBy u (2 * coords.length + 1) s (n d * sp / 2) (|(n d : ℝ)| * sp / 2) := by
    have := n2.mono h0 h1 (l := 2 * coords.length + 1) (by omega) le_rfl
    have e1 : (0.5 * n 0 * (if (0 : Fin 3) = d then sp else 0) + 0.5 * n 1 * (if (1 : Fin 3) = d then sp else 0) +
        0.5 * n 2 * if (2 : Fin 3) = d then sp else 0 : ℝ) = n d * sp / 2 := by
      fin_cases d <;> simp <;> ring
    have e2 : (|0.5 * n 0 * (if (0 : Fin 3) = d then sp else 0)| + |0.5 * n 1 * (if (1 : Fin 3) = d then sp else 0)| +
        |0.5 * n 2 * if (2 : Fin 3) = d then sp else 0| : ℝ) = |(n d : ℝ)| * sp / 2 := by
      have h5 : |(0.5 : ℝ)| = 1 / 2 := by norm_num
      fin_cases d <;> simp [abs_mul, abs_of_pos hs, h5] <;> ring
    rwa [e1, e2] at this
  have n4 := (n1.mono h0 h1 (l := 2 * coords.length + 1) (by omega) le_rfl).add h0 h1 n3.neg
  rw [← sub_eq_add_neg, ← sub_eq_add_neg] at n4
  exact (n4.fl h0 h1 ho).1

/-- **C151** (grid).  With positive charges, a positive spacing and an extension that is not negative, the grid in the model is the
result of exact arithmetic.  Every computed box contains the requested interval around the centre of charge, and with it all
atoms with the margin of C08, up to rounding errors. -/
theorem C151_grid (eigh : (Fin 3 → V3) → (Fin 3 → V3)) (zs : List ℝ) (coords : List (Fin 3 → ℝ)) (sp ext : ℝ)
    (hlen : zs.length = coords.length) (hne : coords ≠ []) (hz : ∀ z ∈ zs, 0 < z) (hsp : 0 < sp) (hext : 0 ≤ ext)
    (M m : Fin 3 → ℝ) (hMm : Extremes coords M m) :
    (∃ (o : Fin 3 → ℝ) (s : Fin 3 → ℤ), fromMolecule eigh (fins zs) (coords.map v3) (XR.fin sp) (XR.fin ext) false =
        cubicGrid (v3 o) (m3 fun c d => if c = d then sp else 0) s ∧ RFromMolecule u zs coords sp ext o s ∧
        ∀ o' n, RFromMolecule u zs coords sp ext o' n → ∀ d,
          ((M d - m d + 2 * ext) / sp * (1 / (1 - u) ^ 3 - 1) < 1 → |n d - s d| ≤ 1)) ∧
      ∀ o n, RFromMolecule u zs coords sp ext o n → ∀ d,
        o d ≤ chargeCentre zs coords d - ((M d - m d) / 2 + ext) * (1 - u) ^ 3 +
          (1 / (1 - u) ^ (2 * coords.length + 2) - 1) * (absCentre zs coords d + n d * sp / 2) ∧
        chargeCentre zs coords d + ((M d - m d) / 2 + ext) * (1 - u) ^ 3 -
          (1 / (1 - u) ^ (2 * coords.length + 2) - 1) * (absCentre zs coords d + n d * sp / 2) ≤ o d + n d * sp := by
  obtain ⟨M', m', hE, hx⟩ := exists_extremes coords hne
  obtain ⟨rfl, rfl⟩ := hMm.unique hE
  have key : ∀ d : Fin 3, (coords.map v3).map (fun x => x d) = coords.map fun x => XR.fin (x d) := by
    intro d; simp [v3, Function.comp_def]
  have hx' : ∀ d, npMax (coords.map fun x => XR.fin (x d)) = .ok (XR.fin (M d)) ∧
      npMin (coords.map fun x => XR.fin (x d)) = .ok (XR.fin (m d)) := fun d => by rw [← key]; exact hx d
  have hle : ∀ d, m d ≤ M d := by
    intro d
    obtain ⟨⟨x, hxm, rfl'⟩, -, hb⟩ := hMm d
    exact (hb x hxm).1.trans (hb x hxm).2
  have ext' : ∀ o n, RFromMolecule u zs coords sp ext o n → ∀ d, RExtent u (M d) (m d) ext sp (n d) := by
    intro o n h d
    obtain ⟨com, -, hd⟩ := h
    obtain ⟨⟨hi, lo, e1, e2, e3⟩, -⟩ := hd d
    rw [(hx' d).1] at e1
    rw [(hx' d).2] at e2
    have e1' := XR.fin_inj.mp (Except.ok.inj e1)
    have e2' := XR.fin_inj.mp (Except.ok.inj e2)
    rw [e1', e2']
    exact e3
  have fr : ∀ x : ℝ, Fl u x x := fun x => by
    unfold Fl
    simpa using mul_nonneg h0 (abs_nonneg x)
  have hzs : 0 < zs.sum := by
    have hzne : zs ≠ [] := by
      intro e; rw [e] at hlen; exact hne (List.length_eq_zero_iff.mp hlen.symm)
    exact List.sum_pos zs (fun x hx => hz x hx) hzne
  refine ⟨⟨fun d => chargeCentre zs coords d - ∑ c, 0.5 * ((⌈(M c - m c + 2 * ext) / sp⌉ : ℤ) : ℝ) * if c = d then sp else 0,
    fun d => ⌈(M d - m d + 2 * ext) / sp⌉, ?_, ?_, ?_⟩, ?_⟩
  · exact fromMolecule_fins eigh zs coords sp ext false hlen hne hzs.ne' hsp.ne' (fun _ _ => 0) (by simp) M m
      (by simpa [newCoords] using hMm) _ fun d => rfl
  · refine ⟨chargeCentre zs coords, ⟨_, RSum.exact h0 _, fun d => ⟨_, _, ?_, RSum.exact h0 _, fr _⟩⟩, fun d =>
      ⟨⟨_, _, (hx' d).1, (hx' d).2, _, _, _, fr _, fr _, fr _, rfl⟩, _, _, _, _, fr _, fr _, fr _, RSum.exact h0 _, ?_⟩⟩
    · exact List.forall₂_same.mpr fun x _ => fr x
    · have : ∀ x y : ℝ, x = y → Fl u x y := fun x y h => h ▸ fr x
      apply this
      simp only [Fin.sum_univ_three, List.sum_cons, List.sum_nil]
      ring
  · intro o' n hn d hlt
    exact (C151_shape h0 h1 (hle d) hext hsp (ext' o' n hn d)).2.2.2.1 hlt
  · intro o n hn d
    obtain ⟨hn0, hb, -⟩ := C151_shape h0 h1 (hle d) hext hsp (ext' o n hn d)
    have ho := C151_origin h0 h1 hlen hne hz hsp hn d
    have hn0' : (0 : ℝ) ≤ n d := by exact_mod_cast hn0
    rw [abs_of_nonneg hn0', abs_le] at ho
    constructor <;> nlinarith [ho.1, ho.2, hb]

end

/-- **C151** (an additional point).  If the requested length is exactly `k` times the spacing, `k + 1` points may be computed. -/
theorem C151_extra {u hi lo ext sp : ℝ} (k : ℕ) (hu : 0 < u) (hk : 0 < k) (hku : k * u ≤ 1) (hs : 0 < sp)
    (h : hi - lo + 2 * ext = k * sp) : RExtent u hi lo ext sp k ∧ RExtent u hi lo ext sp (k + 1) := by
  have fr : ∀ x : ℝ, Fl u x x := fun x => by
    unfold Fl
    simpa using mul_nonneg hu.le (abs_nonneg x)
  have hkR : (0 : ℝ) < k := by exact_mod_cast hk
  have e : (hi - lo + 2 * ext) / sp = k := by rw [h, mul_div_cancel_right₀ _ hs.ne']
  refine ⟨⟨_, _, _, fr _, fr _, fr _, ?_⟩, ⟨_, _, k * (1 + u), fr _, fr _, ?_, ?_⟩⟩
  · rw [e]; simp
  · rw [e]
    unfold Fl
    rw [abs_of_pos hkR, show (k : ℝ) * (1 + u) - k = u * k by ring, abs_of_pos (by positivity)]
  · symm
    rw [Int.ceil_eq_iff]
    push_cast
    constructor <;> nlinarith

/-- Example: one atom at the origin, the default spacing and extension: 50 or 51 points in every direction. -/
example : RExtent (2⁻¹ ^ 53) 0 0 5 0.2 50 ∧ RExtent (2⁻¹ ^ 53) 0 0 5 0.2 51 := by
  have := C151_extra (u := 2⁻¹ ^ 53) (hi := 0) (lo := 0) (ext := 5) (sp := 0.2) 50 (by positivity) (by decide) (by norm_num)
    (by norm_num) (by norm_num)
  simpa using this

/-- Example: the hypotheses of `C151_grid` hold for water. -/
example : [8, 1, 1].length = [![0, 0, 0], ![1, 0, 1], ![(-1 : ℝ), 0, 1]].length ∧ (∀ z ∈ [(8 : ℝ), 1, 1], 0 < z) ∧
    Extremes [![0, 0, 0], ![1, 0, 1], ![(-1 : ℝ), 0, 1]] ![1, 0, 1] ![-1, 0, 0] := by
  refine ⟨rfl, by simp, ?_⟩
  intro d; fin_cases d <;> simp

end
end BFit
