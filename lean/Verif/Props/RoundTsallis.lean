import Verif.Props.RoundScipy

/-!
C148: accuracy of the objective and gradient of `ScipyFit` with the Tsallis divergence when every operation is rounded.
-/

namespace BFit

open Real Classical Finset

noncomputable section

/-- A power with a computed base and a computed exponent. -/
theorem Rel.rpow_both {u : ℝ} (h0 : 0 ≤ u) (h1 : u < 1) {k j : ℕ} {a x b β : ℝ} (h : Rel u k a x) (hx : 0 < x)
    (hb : |b - β| ≤ u * |β|) (hj : |b| * k + |β * log x| ≤ j) : Rel u j (a ^ b) (x ^ β) := by
  have hu1 : 0 < 1 - u := by linarith
  have ha : 0 < a := by
    obtain ⟨t, ht, -, rfl⟩ := h
    exact mul_pos hx (lt_of_lt_of_le (pow_pos hu1 k) ht)
  have hL : u ≤ -log (1 - u) := by
    have := log_le_sub_one_of_pos hu1
    linarith
  have hL0 : 0 ≤ -log (1 - u) := h0.trans hL
  have h2 := h.log_sub h0 h1 hx
  have h3 : |log a * b - log x * β| ≤ j * -log (1 - u) := by
    have e : log a * b - log x * β = b * (log a - log x) + (b - β) * log x := by ring
    rw [e]
    refine (abs_add_le _ _).trans ?_
    rw [abs_mul, abs_mul]
    have t1 := mul_le_mul_of_nonneg_left h2 (abs_nonneg b)
    have t2 := mul_le_mul_of_nonneg_right (hb.trans (mul_le_mul_of_nonneg_right hL (abs_nonneg β))) (abs_nonneg (log x))
    have t3 := mul_le_mul_of_nonneg_right hj hL0
    rw [abs_mul] at t3
    linarith
  have hlow : (1 - u) ^ j = exp (-(j * -log (1 - u))) := by
    rw [← rpow_natCast, rpow_def_of_pos hu1]
    ring_nf
  rw [abs_le] at h3
  refine ⟨exp (log a * b - log x * β), ?_, ?_, ?_⟩
  · rw [hlow]
    exact exp_le_exp.mpr h3.1
  · rw [hlow, ← exp_add]
    exact exp_le_one_iff.mpr (by linarith)
  · rw [rpow_def_of_pos ha, rpow_def_of_pos hx, ← exp_add]
    ring_nf

/-- **C148.**  The objective and the entries of the gradient that `func` computes with rounded operations for a Tsallis object made
by its constructor, in each of the three modes, where the density is positive and the model exceeds the mask by more than the
rounding errors.  With non-negative weights the derivatives in the coefficients have a small relative error. -/
theorem C148_tsallis {u : ℝ} (h0 : 0 ≤ u) (hu : u ≤ 1 / 10) {S : SFit} {norm : Bool} {Sh : Shape} {N : ℕ} {W f w : ℕ → ℝ}
    {α μ : ℝ} {t : Tsallis} (h : FitData S.toFit norm Sh N W f) (hw : S.weights = fins (tab N w))
    (ht : Tsallis.init α (XR.fin μ) = .ok t) (hm : S.measure = .ts t) (hf : ∀ i < N, 0 < f i)
    (hg : S.grid.Positive) (hl : N = S.grid.len) (hW : ∀ i < N, 0 ≤ W i) (args : SArgs) (x c e : List ℝ)
    (hp : Params Sh.nb args x c e) (hcn : ∀ a ∈ c, 0 ≤ a) (hen : ∀ a ∈ e, 0 < a) {J K : ℕ}
    (hJ : ∀ k < Sh.nb, ∀ i < N, 3 * (vec e k * Sh.rad k i ^ 2) ≤ J) (hK : α * (J + Sh.nb + 11 : ℕ) ≤ K) :
    ∃ g : List ℝ, S.model.evaluate (fins c) (fins e) false = .ok (fins g, none) ∧
    ((∀ i < N, μ < vec g i * (1 - u) ^ (J + Sh.nb + 10) ∧ f i * tiny < vec g i * (1 - u) ^ (J + Sh.nb + 11)) →
     (∀ i < N, 11 / 10 * |α - 1| * (J + Sh.nb + 11 : ℕ) + |(α - 1) * log (f i / vec g i)| ≤ K) →
    ∃ (obj : ℝ) (grad : List ℝ) (B : ℝ) (D : ℕ → ℝ),
      S.func (fins x) args = .ok (XR.fin obj, fins grad) ∧ grad.length = x.length ∧
      S.integrate (fins (tab N fun i => |w i| * (f i * ((f i / vec g i) ^ (α - 1) + 1) / |α - 1|))) = .ok (XR.fin B) ∧
      (∀ k < x.length, S.integrate (fins (tab N fun i =>
        |w i| * (f i / vec g i) ^ α * Sh.jcolB norm c e (args.off Sh.nb + k) i)) = .ok (XR.fin (D k))) ∧
      ((∀ i < N, 0 ≤ w i) → ∀ k < x.length, args.off Sh.nb + k < Sh.nb → D k = |vec grad k|) ∧
      ∀ (v : ℝ) (d : ℕ → ℝ), RFunc u 0 S.grid S.spherical N Sh.nb S.measure f w Sh.isS norm Sh.rad (vec c) (vec e)
          (args.off Sh.nb) x.length v d →
        |v - obj| ≤ (1 / (1 - u) ^ (N + K + 13) - 1) * B ∧
        ∀ k < x.length, |d k - vec grad k| ≤ (1 / (1 - u) ^ (N + J + K + 27) - 1) * D k) := by
  have h1 : u < 1 := by linarith
  have hu1 : 0 < 1 - u := by linarith
  obtain ⟨hα0, hα1, rfl⟩ : 0 ≤ α ∧ α ≠ 1 ∧ t = ⟨α, XR.fin μ⟩ := by
    by_cases h : 0 ≤ α ∧ 1e-10 ≤ |α - 1|
    · rw [(C27_construction α (XR.fin μ)).1 h] at ht
      injection ht with ht
      refine ⟨h.1, ?_, ht.symm⟩
      rintro rfl
      norm_num at h
    · rw [(C27_construction α (XR.fin μ)).2 h] at ht
      simp at ht
  have hβ : 0 < |α - 1| := abs_pos.mpr (sub_ne_zero.mpr hα1)
  set G := Sh.dens norm (vec c) (vec e) with hG
  have hev := h.model.eval c e false hp.len.1 hp.len.2 fun _ a ha => (hen a ha).le
  refine ⟨tab N G, by simpa using hev, fun hmar hlog => ?_⟩
  have hmar : ∀ i < N, μ < G i * (1 - u) ^ (J + Sh.nb + 10) ∧ f i * tiny < G i * (1 - u) ^ (J + Sh.nb + 11) := by
    intro i hi
    have := hmar i hi
    rwa [vec_tab hi] at this
  have hlog : ∀ i < N, 11 / 10 * |α - 1| * (J + Sh.nb + 11 : ℕ) + |(α - 1) * log (f i / G i)| ≤ K := by
    intro i hi
    have := hlog i hi
    rwa [vec_tab hi] at this
  have htiny : 0 < tiny := tiny_pos
  have hGpos : ∀ i < N, 0 < G i := fun i hi =>
    pos_of_mul_pos_left ((mul_pos (hf i hi) htiny).trans (hmar i hi).2) (pow_nonneg hu1.le _)
  have hun : ∀ i < N, Unmasked μ (f i) (G i) := fun i hi =>
    ⟨(hmar i hi).1.trans_le (mul_le_of_le_one_right (hGpos i hi).le (pow_le_one₀ hu1.le (by linarith))),
     (hmar i hi).2.trans_le (mul_le_of_le_one_right (hGpos i hi).le (pow_le_one₀ hu1.le (by linarith)))⟩
  have hfun := func_fins h hw (by rw [hm]; exact measAt_ts N f α μ hα1 hf) hp (fun _ a ha => (hen a ha).le) hun
  refine ⟨_, _, ∑ i ∈ range N, W i * (|w i| * (f i * ((f i / G i) ^ (α - 1) + 1) / |α - 1|)),
    fun k => ∑ i ∈ range N, W i * (|w i| * (f i / G i) ^ α * Sh.jcolB norm c e (args.off Sh.nb + k) i),
    hfun, by simp, ?_, fun k _ => ?_, fun hwn k hk hlt => ?_, fun v d R => ?_⟩
  · rw [tab_congr (g := fun i => |w i| * (f i * ((f i / G i) ^ (α - 1) + 1) / |α - 1|)) fun i hi => by rw [vec_tab hi]]
    exact h.quad.fin _
  · rw [tab_congr (g := fun i => |w i| * (f i / G i) ^ α * Sh.jcolB norm c e (args.off Sh.nb + k) i)
      fun i hi => by rw [vec_tab hi]]
    exact h.quad.fin _
  · rw [vec_tab hk]
    have hb : ∀ i, 0 ≤ bf (Sh.isS (args.off Sh.nb + k)) norm (vec e (args.off Sh.nb + k)) (Sh.rad (args.off Sh.nb + k) i) := by
      intro i
      cases norm
      · exact bf_nonneg_unnorm _ _ _
      · exact bf_nonneg _ _ (vec_of_mem hp.len.2 hen _ hlt).le
    have e1 : ∑ i ∈ range N, W i * (w i * -((f i / G i) ^ α) * Sh.jcol norm c e (args.off Sh.nb + k) i) =
        -∑ i ∈ range N, W i * (|w i| * (f i / G i) ^ α * Sh.jcolB norm c e (args.off Sh.nb + k) i) := by
      rw [← sum_neg_distrib]
      refine sum_congr rfl fun i hi => ?_
      rw [Shape.jcol, Shape.jcolB, if_pos hlt, if_pos hlt, abs_of_nonneg (hwn i (mem_range.mp hi))]
      ring
    rw [e1, abs_neg, abs_of_nonneg]
    refine sum_nonneg fun i hi => ?_
    have hi := mem_range.mp hi
    rw [Shape.jcolB, if_pos hlt]
    exact mul_nonneg (hW i hi) (mul_nonneg (mul_nonneg (abs_nonneg _)
      (rpow_nonneg (div_nonneg (hf i hi).le (hGpos i hi).le) _)) (hb i))
  · rw [hm] at R
    have key : ∀ i < N, NearBy u (K + 5) (R.k i) (tsInt α (f i) (G i)) (f i * ((f i / G i) ^ (α - 1) + 1) / |α - 1|) ∧
        NearBy u (K + 1) (R.dk i) (-((f i / G i) ^ α)) ((f i / G i) ^ α) := by
      intro i hi
      obtain ⟨r1, r2⟩ := rel_dens h0 h1 hu hp.len.1 hp.len.2 hcn hen hJ R.h_φ R.h_m i hi
      rw [← hG] at r1 r2
      obtain ⟨z, ratio, b, p, q, a, s, hz, hr, hb, -, hpw, hq, ha, hv, hs, hd⟩ := R.h_k i hi
      have b1 := (r1.bounds h0 h1 r2).1
      have b2 := ((Rel.of_fu h0 h1 hz).bounds h0 h1 (mul_pos (hf i hi) htiny).le).2
      rw [pow_one] at b2
      have c1 : μ < R.m i := (hmar i hi).1.trans_le b1
      have c2 : z < R.m i := by
        have e1 : z * (1 - u) < G i * (1 - u) ^ (J + Sh.nb + 10) * (1 - u) := by
          refine b2.trans_lt ((hmar i hi).2.trans_le (le_of_eq ?_))
          rw [pow_succ]; ring
        exact (lt_of_mul_lt_mul_right e1 hu1.le).trans_le b1
      rw [if_pos ⟨by exact c1, c2⟩] at hr
      have r3 : Rel u (J + Sh.nb + 11) ratio (f i / G i) :=
        ((Rel.of_fu h0 h1 hr).trans h0 h1 ((Rel.refl h0 h1 (f i)).div h0 h1 r1)).mono h0 h1 (by omega)
      have hq0 : 0 < f i / G i := div_pos (hf i hi) (hGpos i hi)
      have hb' : |b - (α - 1)| ≤ u * |α - 1| := hb
      have hba : |b| ≤ 11 / 10 * |α - 1| := by
        have e1 := abs_add_le (b - (α - 1)) (α - 1)
        rw [sub_add_cancel] at e1
        have e2 := mul_le_mul_of_nonneg_right hu hβ.le
        linarith
      constructor
      · have r4 := r3.rpow_both h0 h1 hq0 hb' (j := K) (by
          have e1 := mul_le_mul_of_nonneg_right hba (Nat.cast_nonneg (α := ℝ) (J + Sh.nb + 11))
          linarith [hlog i hi])
        have hpos := rpow_pos_of_pos hq0 (α - 1)
        have r5 := NearBy.of_rel h0 h1 ((Rel.of_fu h0 h1 hpw).trans h0 h1 r4)
        rw [abs_of_pos hpos] at r5
        have n1 := ((NearBy.refl h0 h1 (1 : ℝ)).mono h0 h1 (Nat.zero_le (1 + K)) le_rfl)
        rw [abs_one] at n1
        have n2 := (r5.sub h0 h1 n1).fl h0 h1 hq
        have n3 := ((NearBy.refl h0 h1 (f i)).mul h0 h1 n2).fu h0 h1 ha
        have n4 := (n3.div_rel h0 h1 (Rel.of_fl h0 h1 hb)).fu h0 h1 hv
        rw [abs_of_pos (hf i hi)] at n4
        exact n4.mono h0 h1 (by omega) le_rfl
      · have r4 := r3.rpow h0 h1 hq0.le hα0 (l := K) (by linarith)
        have r5 := (NearBy.of_rel h0 h1 ((Rel.of_fu h0 h1 hs).trans h0 h1 r4)).neg
        rw [abs_of_pos (rpow_pos_of_pos hq0 α), ← hd] at r5
        exact r5.mono h0 h1 (by omega) le_rfl
    obtain ⟨k1, k2⟩ := R.near h0 h1 h hg hl hW hp hu hen hJ (fun i hi => (key i hi).1) fun i hi => (key i hi).2
    refine ⟨(k1.mono h0 h1 (by omega) le_rfl).1, fun k hk => ?_⟩
    rw [vec_tab hk]
    exact ((k2 k hk).mono h0 h1 (by omega) le_rfl).1

/-- **C148** (exact arithmetic).  The numbers of the exact model are admissible for every accuracy. -/
theorem C148_exact {u : ℝ} (h0 : 0 ≤ u) {S : SFit} {norm : Bool} {Sh : Shape} {N : ℕ} {W f w : ℕ → ℝ} {α μ : ℝ}
    (h : FitData S.toFit norm Sh N W f) (hw : S.weights = fins (tab N w)) (hg : S.grid.Finite) (hl : N = S.grid.len)
    (hs : S.spherical = true → ∃ g, S.grid = .radial g) (args : SArgs) (x c e : List ℝ)
    (hp : Params Sh.nb args x c e) (hpos : norm = true → ∀ a ∈ e, 0 ≤ a) (hα : α ≠ 1)
    (hm : S.measure = .ts ⟨α, XR.fin μ⟩) (hf : ∀ i < N, 0 < f i) (hun : Sh.AllUnmasked norm N μ f c e) :
    ∃ (obj : ℝ) (grad : List ℝ), S.func (fins x) args = .ok (XR.fin obj, fins grad) ∧
      Nonempty (RFunc u 0 S.grid S.spherical N Sh.nb S.measure f w Sh.isS norm Sh.rad (vec c) (vec e) (args.off Sh.nb) x.length
        obj (vec grad)) := by
  refine ⟨_, _, func_fins h hw (by rw [hm]; exact measAt_ts N f α μ hα hf) hp hpos hun,
    RFunc.exact h0 h hg hl hs args x c e fun i hi => ?_⟩
  rw [hm]
  have hpos : 0 < f i / Sh.dens norm (vec c) (vec e) i :=
    div_pos (hf i hi) (unmasked_pos (hf i hi).le (hun i hi))
  refine ⟨_, f i / Sh.dens norm (vec c) (vec e) i, α - 1, _, _, _, _, Fu.refl h0 _, ?_, Fl.refl h0 _, .inl hpos,
    Fu.refl h0 _, Fl.refl h0 _, Fu.refl h0 _, Fu.refl h0 _, Fu.refl h0 _, rfl⟩
  rw [if_pos ⟨by exact (hun i hi).1, (hun i hi).2⟩]
  exact Fu.refl h0 _

/-- C148 for the fit object of C42 with `alpha = 2` and the coefficient, in double precision: the computed derivative has a
relative error of at most `10⁻¹³`. -/
example : ∃ (obj : ℝ) (grad : List ℝ), (demoSFit (.ts ⟨2, XR.fin 0⟩)).func (fins [1]) (.fixedExpons (fins [1])) =
      .ok (XR.fin obj, fins grad) ∧
    ∀ (v : ℝ) (d : ℕ → ℝ), RFunc (2 ^ (-53 : ℤ)) 0 (demoSFit .sq).grid (demoSFit .sq).spherical 3 1
        (.ts ⟨2, XR.fin 0⟩) demoF
        (fun i => (i : ℝ) + 1) (fun k => decide (k < 1)) true (fun _ i => vec [0, 1, 2] i) (vec [1]) (vec [1]) 0 1 v d →
      |d 0 - vec grad 0| ≤ 1 / 10 ^ 13 * |vec grad 0| := by
  have hu : (0 : ℝ) ≤ 2 ^ (-53 : ℤ) := by positivity
  obtain ⟨g, h1, h2⟩ := C148_tsallis (u := 2 ^ (-53 : ℤ)) hu (by norm_num) (α := 2) (μ := 0) (t := ⟨2, XR.fin 0⟩)
    (w := fun i => (i : ℝ) + 1) (demoSFit_data (.ts ⟨2, XR.fin 0⟩)) rfl
    ((C27_construction 2 (XR.fin 0)).1 (by norm_num)) rfl (fun i _ => demoF_pos i)
    ⟨[0, 1, 2], rfl, by norm_num⟩ rfl demo_W (.fixedExpons (fins [1])) [1] [1] [1]
    (.coeffs [1] [1] rfl rfl) (by simp) (by simp) (J := 12) (K := 48) demo_J (by norm_num [atomShape])
  have hg : g = tab 3 ((atomShape [0, 1, 2] 1 0).dens true (vec [1]) (vec [1])) := by
    have := (demoSFit_data (.ts ⟨2, XR.fin 0⟩)).model.eval [1] [1] false rfl rfl (by simp)
    rw [h1] at this
    injection this with this
    injection this with this
    exact fins_injective this
  obtain ⟨obj, grad, B, D, h3, -, -, -, h4, h5⟩ := h2 (fun i hi => by
    rw [hg, vec_tab hi, demo_dens i hi]
    have hb : 0 < bf true true 1 (i : ℝ) := bf_pos true one_pos (Or.inl rfl)
    have hpw : (3 : ℝ) / 4 < (1 - 2 ^ (-53 : ℤ)) ^ (12 + (atomShape [0, 1, 2] 1 0).nb + 11) := by norm_num [atomShape]
    refine ⟨mul_pos hb (by norm_num), ?_⟩
    unfold demoF
    have h3 : ((i : ℝ) + 1) * tiny < 3 / 4 := by
      have h1 : (i : ℝ) + 1 ≤ 3 := by interval_cases i <;> norm_num
      have := tiny_lt_quarter
      have := tiny_pos
      nlinarith
    calc ((i : ℝ) + 1) * bf true true 1 i * tiny = bf true true 1 i * (((i : ℝ) + 1) * tiny) := by ring
      _ < _ := mul_lt_mul_of_pos_left (h3.trans hpw) hb) (fun i hi => by
    rw [hg, vec_tab hi, demo_dens i hi]
    have hb : 0 < bf true true 1 (i : ℝ) := bf_pos true one_pos (Or.inl rfl)
    have e1 : demoF i / bf true true 1 (i : ℝ) = (i : ℝ) + 1 := by
      unfold demoF
      field_simp
    have e2 := log_le_sub_one_of_pos (x := (i : ℝ) + 1) (by positivity)
    have e3 : 0 ≤ log ((i : ℝ) + 1) := log_nonneg (by linarith [Nat.cast_nonneg (α := ℝ) i])
    have e4 : (i : ℝ) ≤ 2 := by interval_cases i <;> norm_num
    rw [e1, show (2 : ℝ) - 1 = 1 by norm_num, one_mul, abs_one, abs_of_nonneg e3]
    norm_num [atomShape]
    linarith)
  refine ⟨obj, grad, h3, fun v d R => ?_⟩
  have k := (h5 v d R).2 0 (by norm_num)
  rw [h4 (fun i _ => by positivity) 0 (by norm_num) (by norm_num [SArgs.off, atomShape])] at k
  refine k.trans (mul_le_mul_of_nonneg_right ?_ (abs_nonneg _))
  norm_num

end
end BFit
