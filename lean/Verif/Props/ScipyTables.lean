import Verif.Props.KineticFit
import Verif.Props.Constructed
import Verif.Props.ScipyInit

/-! Property C130: the scripts that fit with `ScipyFit`. -/

namespace BFit

open Real Classical Finset Topology

noncomputable section

theorem sinit_attrs {grid : Grid} {density : List XR} {model : GModel} {ms : Meas} {weights : Option (List XR)}
    {T : Option XR} {spherical : Bool} {mask : XR} {S : SFit}
    (h : SFit.init grid density model (.inst ms) "SLSQP" weights T spherical mask = .ok S) :
    S.method = .slsqp ∧ S.maskValue = mask := by
  unfold SFit.init at h
  rw [parse_names.1] at h
  split at h
  · simp [raise] at h
  · simp [raise] at h
  split_ifs at h
  · simp [raise] at h
  simp only at h
  split at h
  · simp at h
  rename_i F hF
  simp only [Except.ok.injEq] at h
  subst h
  refine ⟨rfl, ?_⟩
  unfold Fit.init at hF
  repeat' split at hF
  all_goals first
    | (simp [raise] at hF; done)
    | (simp only [Except.ok.injEq] at hF; subst hF; rfl)

theorem dens_nonneg_any {S : Shape} (norm : Bool) {c e : ℕ → ℝ} (hc : ∀ k < S.nb, 0 ≤ c k) (he : ∀ k < S.nb, 0 ≤ e k)
    (i : ℕ) : 0 ≤ S.dens norm c e i := by
  refine Finset.sum_nonneg fun k hk => mul_nonneg (hc k (mem_range.mp hk)) ?_
  cases norm
  · exact bf_nonneg_unnorm _ _ _
  · exact bf_nonneg _ _ (he k (mem_range.mp hk))

/-- The objective with the Kullback-Leibler divergence where the density may vanish: the gradient is finite. -/
theorem func_kl_ok {S : SFit} {Sh : Shape} {N : ℕ} {W f w : ℕ → ℝ} {μ : ℝ} {nv : XR} {norm : Bool}
    (h : FitData S.toFit norm Sh N W f) (hw : S.weights = fins (tab N w)) (hm : S.measure = .kl ⟨XR.fin μ, nv⟩)
    (hf : ∀ i < N, 0 ≤ f i) {args : SArgs} {x c e : List ℝ} (hp : Params Sh.nb args x c e)
    (hc : ∀ a ∈ c, 0 ≤ a) (he : ∀ a ∈ e, 0 ≤ a) :
    ∃ v grad, S.func (fins x) args = .ok (v, fins grad) ∧ grad.length = x.length ∧
      ((∀ i < N, 0 < f i) → ∃ v', v = XR.fin v') := by
  set g := Sh.dens norm (vec c) (vec e) with hg
  have hg0 : ∀ i < N, 0 ≤ g i := fun i _ =>
    dens_nonneg_any norm (vec_of_mem hp.len.1 hc) (fun k hk => vec_of_mem hp.len.2 he k hk) i
  have hlen : ((KL.mk (XR.fin μ) nv).core (fins (tab N f)) (fins (tab N g)) true).1.length = N := by
    unfold KL.core
    split <;> simp [KL.ratio]
  have hev : S.measure.evaluate (.arr (ND.vec (fins (tab N f)))) (.arr (ND.vec (fins (tab N g)))) (.bool true) =
      .ok ((KL.mk (XR.fin μ) nv).core (fins (tab N f)) (fins (tab N g)) true) := by
    rw [hm]
    exact kl_evaluate_vec _ _ _ (by simp) _
  have hd := kl_core_tab_deriv μ nv N f g hf hg0
  have hb : ∃ l, bcast (· * ·) S.weights ((KL.mk (XR.fin μ) nv).core (fins (tab N f)) (fins (tab N g)) true).1 =
      .ok l ∧ l.length = N := by
    unfold bcast
    rw [hw, if_pos (by rw [hlen, fins_length, tab_length])]
    exact ⟨_, rfl, by rw [List.length_zipWith, hlen, fins_length, tab_length, min_self]⟩
  obtain ⟨l, hl1, hl2⟩ := hb
  obtain ⟨v, hv⟩ := h.quad.ok l hl2
  refine ⟨v, tab x.length fun k => ∑ i ∈ range N, W i * (w i * -klRatio μ (f i) (g i) *
         Sh.jcol norm c e (args.off Sh.nb + k) i), ?_, by simp, ?_⟩
  · unfold SFit.func
    rw [evaluateModel_fins h hp fun _ => he]
    simp only
    rw [h.dens, ← hg, hev]
    simp only
    rw [hl1]
    simp only [Fit.integrate]
    rw [hv]
    simp only
    rw [hd]
    simp only [Option.getD_some]
    rw [mapPy_ok (g := fun k => XR.fin (∑ i ∈ range N, W i * (w i * -klRatio μ (f i) (g i) *
         Sh.jcol norm c e (args.off Sh.nb + k) i)))]
    · simp [fins, tab]
    · intro k hk
      have hk : k < x.length := by simpa using hk
      unfold SFit.gradEntry
      rw [hw, bcast_tab]
      simp only
      rw [column_tab _ _ _ (fun j i => Sh.jcol norm c e (args.off Sh.nb + j) i) hk]
      simp only
      rw [bcast_tab]
      exact h.quad.fin _
  · intro hfp
    rw [kl_core_tab μ nv N f g hfp hg0, hw, bcast_tab] at hl1
    simp only [Except.ok.injEq] at hl1
    rw [← hl1, h.quad.fin] at hv
    simp only [Except.ok.injEq] at hv
    exact ⟨_, hv.symm⟩

/-- The vectors an optimiser may try: `2 n` finite numbers, none below `1e-12`. -/
def Feasible (n : ℕ) (x : List ℝ) : Prop := x.length = 2 * n ∧ ∀ a ∈ x, 1e-12 ≤ a

/-- What a script hands to the optimiser: as many bounds `(1e-12, inf)` as unknowns, a starting point within them,
and the options. -/
structure ScriptProblem (P : SProblem) (n : ℕ) : Prop where
  method : P.method = .slsqp
  bounds : P.bounds = List.replicate (2 * n) (XR.fin 1e-12, XR.pinf)
  x0 : ∃ x, P.x0 = fins x ∧ Feasible n x
  tol : P.tol = XR.fin 1e-14
  maxiter : P.maxiter = 10000

/-- What `row` makes of the optimiser's answer to the problem `P`: an exception ends the script; from a feasible
answer come the first half as coefficients, the second half as exponents and finite errors. -/
structure Reports (row : (SProblem → Py SRes) → Option (Except ScriptErr SResult)) (P : SProblem) (n : ℕ)
    (dens : List ℝ) : Prop where
  raises : ∀ minimize e, minimize P = .error e → row minimize = some (.error (.raised e))
  answers : ∀ minimize r x, minimize P = .ok r → r.x = fins x → Feasible n x → ∃ res,
    row minimize = some (.ok res) ∧ res.coeffs = fins (x.take n) ∧ res.exps = fins (x.drop n) ∧
    res.fun_ = r.fun_ ∧ res.jacobian = r.jac ∧ res.success = r.success ∧ res.message = r.message ∧
    ∃ v l1 linf ls : ℝ, res.performance.integral = XR.fin v ∧ 0 ≤ v ∧ res.performance.l1 = XR.fin l1 ∧ 0 ≤ l1 ∧
      res.performance.linf = XR.fin linf ∧ 0 ≤ linf ∧ res.performance.ls = XR.fin ls ∧ 0 ≤ ls ∧
      ((∀ y ∈ dens, 0 < y) → ∃ kl : ℝ, res.performance.kl = XR.fin kl)

theorem feasible_split {n : ℕ} {x : List ℝ} (h : Feasible n x) :
    Params n .none x (x.take n) (x.drop n) ∧ (∀ a ∈ x.take n, 1e-12 ≤ a) ∧ ∀ a ∈ x.drop n, 1e-12 ≤ a := by
  have hl := h.1
  have := Params.both (nb := n) (x.take n) (x.drop n) (by simp; omega) (by simp; omega)
  rw [List.take_append_drop] at this
  exact ⟨this, fun a ha => h.2 a (List.mem_of_mem_take ha), fun a ha => h.2 a (List.mem_of_mem_drop ha)⟩

/-- One pass of either script on a grid and an atom. -/
theorem slsqpFit_ok {pts : List ℝ} (hp : pts.Pairwise (· ≤ ·)) (hne : pts ≠ []) {t : ℝ → ℝ} (ht : ∀ r, 0 ≤ t r)
    {A : SlaterAtom} (hA : A.atomicDensity (ND.vec (fins pts)) "total" = .ok (fins (pts.map t)))
    (norm : Bool) (ms : Meas) (con : Bool) (ns np : ℕ) (hsp : ns + np ≠ 0) (c e : List ℝ)
    (hx0 : Feasible (ns + np) (c ++ e)) :
    ∃ (F : SFit) (P : SProblem) (f : ℕ → ℝ) (I : ℝ) (m : Atomic),
      (Atomic.init (.arr (.one (fins pts))) .none (.int ns) (.int np) norm = .ok m ∧
        SFit.init (.radial ⟨fins pts⟩) (fins (pts.map t)) (.atom m) (.inst ms) "SLSQP" none none true (XR.fin 1e-18) =
          .ok F ∧ P.x0 = fins (c ++ e)) ∧
      FitData F.toFit norm (atomShape (pts.map fun r => |r|) ns np) pts.length (radW pts true) f ∧
      F.weights = fins (tab pts.length fun _ => 1) ∧ F.measure = ms ∧ (∀ i < pts.length, 0 ≤ f i) ∧
      ((∀ y ∈ pts.map t, 0 < y) → ∀ i < pts.length, 0 < f i) ∧
      integrateOn (.radial ⟨fins pts⟩) true (fins (pts.map t)) = .ok (XR.fin I) ∧ F.integralDens = XR.fin I ∧
      P.objective = (fun x => F.func x .none) ∧ P.constraints = (if con then [fun x => F.constNorm x .none] else []) ∧
      ScriptProblem P (ns + np) ∧
      Reports (fun minimize => some (slsqpFit minimize norm ms con ⟨fins pts⟩ ns np (fins c) (fins e) A)) P (ns + np)
        (pts.map t) ∧
      ∀ minimize r x res, minimize P = .ok r → r.x = fins x →
        slsqpFit minimize norm ms con ⟨fins pts⟩ ns np (fins c) (fins e) A = .ok res →
        F.goodness (fins (x.take (ns + np))) (fins (x.drop (ns + np))) = .ok res.performance := by
  have hnn : ∀ i < pts.length, 0 ≤ t (vec pts i) := fun i _ => ht _
  obtain ⟨m, h1, h2⟩ := C124_radial pts none ns np hsp norm true (fun i => t (vec pts i)) hnn
  have hW : (fun i => vec (trapW pts) i * if true then 4 * π * vec pts i ^ 2 else 1) = radW pts true := by
    funext i
    simp [radW, sphW]
  simp only [Option.getD_none, sub_zero] at h1 h2
  simp only [if_true] at hW h2
  rw [hW] at h2
  obtain ⟨F, s1, s2, s3, s4, s5⟩ := h2.scipy ms "SLSQP" none none (XR.fin 1e-18) (.inl (by decide))
  have e1 : fins (tab pts.length fun i => t (vec pts i)) = fins (pts.map t) := by rw [tab_map]
  rw [e1] at s1
  simp only [Option.map_none] at s1
  obtain ⟨a1, a2⟩ := sinit_attrs s1
  have hnb : F.model.nbasis = ((ns + np : ℕ) : ℤ) := s2.model.nbasis
  have hN : 0 < pts.length := List.length_pos_of_ne_nil hne
  have hpr : F.problem (fins c) (fins e) (slsqpOpts con) = .ok ⟨fun x => F.func x .none, fins (c ++ e), .slsqp,
      List.replicate (2 * (ns + np)) (XR.fin 1e-12, XR.pinf), if con then [fun x => F.constNorm x .none] else [],
      XR.fin 1e-14, 10000⟩ := by
    unfold SFit.problem SFit.setup
    simp only [slsqpOpts, Bool.and_self, if_true, hnb, a1]
    congr 2
    · simp [fins]
    · unfold SFit.constraints
      cases con <;> simp [a1]
  refine ⟨F, ⟨fun x => F.func x .none, fins (c ++ e), .slsqp, List.replicate (2 * (ns + np)) (XR.fin 1e-12, XR.pinf),
    if con then [fun x => F.constNorm x .none] else [], XR.fin 1e-14, 10000⟩, fun i => t (vec pts i),
    ∑ i ∈ range pts.length, radW pts true i * t (vec pts i), m, ⟨h1, s1, rfl⟩, s2, by simpa using s4,
    s3, hnn, ?_, ?_, by simpa using s5, rfl, rfl, ⟨rfl, rfl, ⟨_, rfl, hx0⟩, rfl, rfl⟩, ⟨?_, ?_⟩, ?_⟩
  · intro hpos i hi
    refine hpos _ (List.mem_map.mpr ⟨vec pts i, ?_, rfl⟩)
    simp [vec, List.getD_eq_getElem?_getD, hi]
  · rw [← e1]
    exact (radW_quad pts true).fin _
  · intro minimize er hmin
    unfold slsqpFit
    simp only [inScript, h1, hA, s1]
    unfold SFit.run
    rw [hpr]
    simp only
    rw [hmin]
  · intro minimize r x hmin hrx hfe
    obtain ⟨hP, hc, he⟩ := feasible_split hfe
    have hc0 : ∀ a ∈ x.take (ns + np), 0 ≤ a := fun a ha => le_trans (by norm_num) (hc a ha)
    have he0 : ∀ a ∈ x.drop (ns + np), 0 ≤ a := fun a ha => le_trans (by norm_num) (he a ha)
    obtain ⟨M, kl, g1, ⟨i, hi', g2⟩, -, g4⟩ := goodness_fins s2 hN _ _ hP.len.1 hP.len.2 fun _ => he0
    have hdn : ∀ i, 0 ≤ (atomShape (pts.map fun x => |x|) ns np).dens norm (vec (x.take (ns + np)))
        (vec (x.drop (ns + np))) i := fun i =>
      dens_nonneg_any norm (vec_of_mem hP.len.1 hc0) (fun k hk => vec_of_mem hP.len.2 he0 k hk) i
    have hWn : ∀ i, 0 ≤ radW pts true i := fun i => radW_nonneg hp true i
    have hperf : ∃ p, F.goodness (fins (x.take (ns + np))) (fins (x.drop (ns + np))) = .ok p ∧
        ∃ v l1 linf ls : ℝ, p.integral = XR.fin v ∧ 0 ≤ v ∧ p.l1 = XR.fin l1 ∧ 0 ≤ l1 ∧ p.linf = XR.fin linf ∧
          0 ≤ linf ∧ p.ls = XR.fin ls ∧ 0 ≤ ls ∧ ((∀ y ∈ pts.map t, 0 < y) → ∃ kl : ℝ, p.kl = XR.fin kl) := by
      refine ⟨_, g1, _, _, _, _, rfl, ?_, rfl, ?_, rfl, ?_, rfl, ?_, ?_⟩
      · exact Finset.sum_nonneg fun i hi => mul_nonneg (hWn i) (hdn i)
      · exact Finset.sum_nonneg fun i hi => mul_nonneg (hWn i) (abs_nonneg _)
      · rw [← g2]; exact abs_nonneg _
      · exact Finset.sum_nonneg fun i hi => mul_nonneg (hWn i) (sq_nonneg _)
      · intro hpos
        refine ⟨_, g4 1e-18 a2 (fun i hi => hpos _ ?_) fun i _ => hdn i⟩
        refine List.mem_map.mpr ⟨vec pts i, ?_, rfl⟩
        simp [vec, List.getD_eq_getElem?_getD, hi]
    obtain ⟨p, p1, p2⟩ := hperf
    refine ⟨⟨fins (x.take (ns + np)), fins (x.drop (ns + np)), r.fun_, r.success, r.message, r.jac, p⟩, ?_, rfl, rfl, rfl,
      rfl, rfl, rfl, p2⟩
    unfold slsqpFit
    simp only [inScript, h1, hA, s1]
    unfold SFit.run
    rw [hpr]
    simp only
    rw [hmin]
    simp only [slsqpOpts, Bool.and_self, if_true, hrx, hnb]
    rw [sliceTo_fins, sliceTo_nat, sliceFrom_fins, sliceFrom_nat, p1]
  · intro minimize r x res hmin hrx hres
    unfold slsqpFit at hres
    simp only [inScript, h1, hA, s1] at hres
    unfold SFit.run at hres
    rw [hpr] at hres
    simp only at hres
    rw [hmin] at hres
    simp only [slsqpOpts, Bool.and_self, if_true, hrx, hnb] at hres
    rw [sliceTo_fins, sliceTo_nat, sliceFrom_fins, sliceFrom_nat] at hres
    cases hg : F.goodness (fins (x.take (ns + np))) (fins (x.drop (ns + np))) with
    | error er => rw [hg] at hres; simp at hres
    | ok p =>
      rw [hg] at hres
      simp only [Except.ok.injEq] at hres
      rw [← hres]

/-! ### C130 -/

/-- One pass of either script for an element. -/
theorem slsqpRow_ok (norm : Bool) (ms : Meas) (con : Bool) (isAlpha : Str → Bool) (low : Str → Str)
    (hl : LowersAscii low) (tf : Str → Py XR) (ht : ReadsFloats tf) (fs : Str → Option (List Str)) (dir : Str)
    (hf : HasData fs dir) (s : Str) (ha : isAlpha s = true) (z : ℕ) (hz : HasZ (low s) z) (hr : z ≤ 54) :
    ∃ pts dens ugbs S P R A, ∃ (I : ℝ) (F : SFit) (Pr : SProblem) (f : ℕ → ℝ) (m : Atomic),
      clenshawRadialGrid (.int z) (.int 10000) (.int 899) (.seq (fins [50, 75, 100])) (.bool true) = .ok ⟨fins pts⟩ ∧
      slaterInit isAlpha low tf fs (.str s) false false = some (.ok R) ∧ Stores R A ∧
      A.atomicDensity (ND.vec (fins pts)) "total" = .ok (fins dens) ∧
      integrateOn (.radial ⟨fins pts⟩) true (fins dens) = .ok (XR.fin I) ∧
      ugbsExponents low tf fs (dir ++ "parse_ugbs.py".toList) (.str s) = .ok ugbs ∧
      ugbs "S".toList = some (fins S) ∧ ugbs "P".toList = some (fins P) ∧ S ≠ [] ∧
      (Atomic.init (.arr (.one (fins pts))) .none (.int S.length) (.int P.length) norm = .ok m ∧
      SFit.init (.radial ⟨fins pts⟩) (fins dens) (.atom m) (.inst ms) "SLSQP" none none true
        (XR.fin 1e-18) = .ok F ∧
      Pr.x0 = fins (List.replicate (S.length + P.length) ((z : ℝ) / ((S.length + P.length : ℕ) : ℝ)) ++
        (S ++ P).map fun x => x * 2)) ∧
      ScriptProblem Pr (S.length + P.length) ∧
      Reports (fun minimize => slsqpRow minimize norm ms con isAlpha low tf fs (dir ++ "parse_ugbs.py".toList) s z) Pr
        (S.length + P.length) dens ∧ 0 < pts.length ∧
      FitData F.toFit norm (atomShape (pts.map fun r => |r|) S.length P.length) pts.length (radW pts true) f ∧
      F.weights = fins (tab pts.length fun _ => 1) ∧ F.measure = ms ∧ (∀ i < pts.length, 0 ≤ f i) ∧
      ((∀ y ∈ dens, 0 < y) → ∀ i < pts.length, 0 < f i) ∧ F.integralDens = XR.fin I ∧
      Pr.objective = (fun x => F.func x .none) ∧
      Pr.constraints = (if con then [fun x => F.constNorm x .none] else []) ∧ (∀ i, 0 ≤ radW pts true i) ∧
      ∀ minimize r x res, minimize Pr = .ok r → r.x = fins x →
        slsqpRow minimize norm ms con isAlpha low tf fs (dir ++ "parse_ugbs.py".toList) s z = some (.ok res) →
        F.goodness (fins (x.take (S.length + P.length))) (fins (x.drop (S.length + P.length))) =
          .ok res.performance := by
  have hz1 := hz.1
  have hz0 : (0 : ℤ) < (z : ℤ) := by exact_mod_cast hz1
  obtain ⟨d, hd, hdz, hdc⟩ := bundled_neutral hz1 hr
  subst hdz
  obtain ⟨R, h1, hS, h2⟩ := bundled_dens d hd isAlpha low tf ht.dec fs s ha hz (by
    rw [hdc]; exact hf.neutral d hd hdc _ hz)
  simp only [hdc, reduceCtorEq, decide_false] at h1
  have hA := attrs_stores hS
  obtain ⟨t, t1, t2, -⟩ := h2 _ hA
  obtain ⟨pts, g1, g2, g3, -⟩ := table_grid (d.z : ℤ) hz0 true
  have hne : pts ≠ [] := by
    intro h
    simp [h] at g3
  obtain ⟨ugbs, S, P, u1, u2, u3, u4, ⟨u5, u5'⟩, u6⟩ := table_start low hl tf ht fs dir hf.ugbs s d.z hz hr 2
  have hlen : 0 < S.length + P.length := by
    have := List.length_pos_of_ne_nil u4
    omega
  have hzr : (1 : ℝ) ≤ d.z := by exact_mod_cast hz1
  have hx0 : Feasible (S.length + P.length)
      (List.replicate (S.length + P.length) ((d.z : ℝ) / ((S.length + P.length : ℕ) : ℝ)) ++
        (S ++ P).map fun x => x * 2) := by
    refine ⟨by simp; omega, fun a ha => ?_⟩
    rcases List.mem_append.mp ha with ha | ha
    · rw [List.eq_of_mem_replicate ha]
      have h0 : (0 : ℝ) < ((S.length + P.length : ℕ) : ℝ) := by exact_mod_cast hlen
      have h68 : ((S.length + P.length : ℕ) : ℝ) ≤ 68 := by exact_mod_cast u5'
      rw [le_div_iff₀ h0]
      nlinarith
    · obtain ⟨b, hb, rfl⟩ := List.mem_map.mp ha
      have := u5 b hb
      norm_num at this ⊢
      linarith
  obtain ⟨F, Pr, f, I, m, w0, w1, w2, w3, w4, w5, w6, w7, w8, w9, w10, w11, w12⟩ := slsqpFit_ok g2 hne t2 (t1 pts) norm ms con
    S.length P.length (by omega) _ _ hx0
  have e : (fun minimize => slsqpRow minimize norm ms con isAlpha low tf fs (dir ++ "parse_ugbs.py".toList) s d.z) =
      fun minimize => some (slsqpFit minimize norm ms con ⟨fins pts⟩ S.length P.length
        (fins (List.replicate (S.length + P.length) ((d.z : ℝ) / ((S.length + P.length : ℕ) : ℝ))))
        (fins ((S ++ P).map fun x => x * 2)) R.attrs) := by
    funext minimize
    unfold slsqpRow
    rw [g1, u1]
    simp only
    rw [u6]
    simp only
    rw [h1]
  refine ⟨pts, pts.map t, ugbs, S, P, R, R.attrs, I, F, Pr, f, m, g1, h1, hA, t1 pts, w6, u1, u2, u3, u4, w0, w10, by rw [e]; exact w11,
    List.length_pos_of_ne_nil hne, w1, w2, w3, w4, w5, w7, w8, w9, fun i => radW_nonneg g2 true i, ?_⟩
  intro minimize r x res hmin hrx hres
  have := congrFun e minimize
  rw [this] at hres
  exact w12 minimize r x res hmin hrx (by simpa using hres)

/-- **C130** (least squares).  For every element from hydrogen to xenon `table_4.py` hands the optimiser a proper
problem: with `n` the number of `S` and `P` exponents in the UGBS file, `2 n` bounds `(1e-12, inf)`, the starting
point `z / n` and twice the exponents, which is within them, and no constraint; at every point within the bounds the objective is a finite number, not negative, and
comes with its exact gradient.  If the optimiser returns a point within the bounds, the pass completes with
coefficients and exponents that are the two halves of that point and with finite errors. -/
theorem C130_least_squares (isAlpha : Str → Bool) (low : Str → Str) (hl : LowersAscii low) (tf : Str → Py XR)
    (ht : ReadsFloats tf) (fs : Str → Option (List Str)) (dir : Str) (hf : HasData fs dir)
    (s : Str) (ha : isAlpha s = true) (z : ℕ) (hz : HasZ (low s) z) (hr : z ≤ 54) :
    ∃ pts dens ugbs S P R A m F, ∃ Pr : SProblem,
      clenshawRadialGrid (.int z) (.int 10000) (.int 899) (.seq (fins [50, 75, 100])) (.bool true) = .ok ⟨fins pts⟩ ∧
      slaterInit isAlpha low tf fs (.str s) false false = some (.ok R) ∧ Stores R A ∧
      A.atomicDensity (ND.vec (fins pts)) "total" = .ok (fins dens) ∧
      ugbsExponents low tf fs (dir ++ "parse_ugbs.py".toList) (.str s) = .ok ugbs ∧
      ugbs "S".toList = some (fins S) ∧ ugbs "P".toList = some (fins P) ∧ S ≠ [] ∧
      Atomic.init (.arr (.one (fins pts))) .none (.int S.length) (.int P.length) false = .ok m ∧
      SFit.init (.radial ⟨fins pts⟩) (fins dens) (.atom m) (.inst .sq) "SLSQP" none none true
        (XR.fin 1e-18) = .ok F ∧
      Pr.x0 = fins (List.replicate (S.length + P.length) ((z : ℝ) / ((S.length + P.length : ℕ) : ℝ)) ++
        (S ++ P).map fun x => x * 2) ∧
      Pr.objective = (fun x => F.func x .none) ∧
      ScriptProblem Pr (S.length + P.length) ∧ Pr.constraints = [] ∧
      (∀ x, Feasible (S.length + P.length) x → ∃ v grad, Pr.objective (fins x) = .ok (XR.fin v, fins grad) ∧ 0 ≤ v ∧
        grad.length = x.length ∧ ∀ k < x.length, ∃ φ : ℝ → ℝ,
          (∀ᶠ y in 𝓝 (vec x k), ∃ g, Pr.objective (fins (x.set k y)) = .ok (XR.fin (φ y), g)) ∧
          HasDerivAt φ (vec grad k) (vec x k)) ∧
      Reports (fun minimize => table4Row minimize isAlpha low tf fs (dir ++ "parse_ugbs.py".toList) s z) Pr
        (S.length + P.length) dens := by
  obtain ⟨pts, dens, ugbs, S, P, R, A, I, F, Pr, f, m, h1, h2, h3, h4, -, h5, h6, h7, h8, ⟨o1, o2, o3⟩, h9, h10, -, d1, d2, d3, -, -, -, d4,
    d5, d6, -⟩ := slsqpRow_ok false .sq false isAlpha low hl tf ht fs dir hf s ha z hz hr
  refine ⟨pts, dens, ugbs, S, P, R, A, m, F, Pr, h1, h2, h3, h4, h5, h6, h7, h8, o1, o2, o3, d4, h9, by simpa using d5, ?_,
    h10⟩
  intro x hx
  obtain ⟨hP, -, -⟩ := feasible_split hx
  obtain ⟨v, grad, v1, v2, v3⟩ := C42_squared d1 d2 d3 .none x _ _ hP (by simp)
  have v0 : 0 ≤ v := by
    have := func_fins d1 d2 (by rw [d3]; exact measAt_sq pts.length f) hP (by simp) fun _ _ => trivial
    rw [v1] at this
    simp only [Except.ok.injEq, Prod.mk.injEq, XR.fin.injEq] at this
    rw [this.1]
    exact Finset.sum_nonneg fun i _ => mul_nonneg (d6 i) (by positivity)
  refine ⟨v, grad, by rw [d4]; exact v1, v0, v2, fun k hk => ?_⟩
  rw [d4]
  exact v3 k hk

/-- **C130** (divergence).  For every element from hydrogen to xenon `table_3.py` hands the optimiser a problem with
the same bounds, a starting point within them and one constraint, whose value at a point within the bounds is the
integral of the atomic density minus that of the model.  The objective returns a value and a finite gradient there;
the value is finite if the density is positive on the grid.  If the optimiser returns a point within the bounds, the
pass completes as in `C130_least_squares`, and the constraint at that point is the integral of the density minus the
integral in the printed errors. -/
theorem C130_divergence (isAlpha : Str → Bool) (low : Str → Str) (hl : LowersAscii low) (tf : Str → Py XR)
    (ht : ReadsFloats tf) (fs : Str → Option (List Str)) (dir : Str) (hf : HasData fs dir)
    (s : Str) (ha : isAlpha s = true) (z : ℕ) (hz : HasZ (low s) z) (hr : z ≤ 54) :
    ∃ pts dens ugbs S P R A m F, ∃ (I : ℝ) (Pr : SProblem) (con : List XR → Py XR),
      clenshawRadialGrid (.int z) (.int 10000) (.int 899) (.seq (fins [50, 75, 100])) (.bool true) = .ok ⟨fins pts⟩ ∧
      slaterInit isAlpha low tf fs (.str s) false false = some (.ok R) ∧ Stores R A ∧
      A.atomicDensity (ND.vec (fins pts)) "total" = .ok (fins dens) ∧
      integrateOn (.radial ⟨fins pts⟩) true (fins dens) = .ok (XR.fin I) ∧
      ugbsExponents low tf fs (dir ++ "parse_ugbs.py".toList) (.str s) = .ok ugbs ∧
      ugbs "S".toList = some (fins S) ∧ ugbs "P".toList = some (fins P) ∧ S ≠ [] ∧
      Atomic.init (.arr (.one (fins pts))) .none (.int S.length) (.int P.length) true = .ok m ∧
      SFit.init (.radial ⟨fins pts⟩) (fins dens) (.atom m) (.inst (.kl ⟨XR.fin 1e-18, XR.fin 100000⟩)) "SLSQP" none none true
        (XR.fin 1e-18) = .ok F ∧
      Pr.x0 = fins (List.replicate (S.length + P.length) ((z : ℝ) / ((S.length + P.length : ℕ) : ℝ)) ++
        (S ++ P).map fun x => x * 2) ∧
      Pr.objective = (fun x => F.func x .none) ∧
      ScriptProblem Pr (S.length + P.length) ∧ Pr.constraints = [con] ∧
      (∀ x, Feasible (S.length + P.length) x → ∃ v grad, Pr.objective (fins x) = .ok (v, fins grad) ∧
        grad.length = x.length ∧ ((∀ y ∈ dens, 0 < y) → ∃ v', v = XR.fin v')) ∧
      Reports (fun minimize => table3Row minimize isAlpha low tf fs (dir ++ "parse_ugbs.py".toList) s z) Pr
        (S.length + P.length) dens ∧
      ∀ minimize r x res, minimize Pr = .ok r → r.x = fins x → Feasible (S.length + P.length) x →
        table3Row minimize isAlpha low tf fs (dir ++ "parse_ugbs.py".toList) s z = some (.ok res) →
        ∃ v, res.performance.integral = XR.fin v ∧ con (fins x) = .ok (XR.fin (I - v)) := by
  obtain ⟨pts, dens, ugbs, S, P, R, A, I, F, Pr, f, m, h1, h2, h3, h4, h4', h5, h6, h7, h8, ⟨o1, o2, o3⟩, h9, h10, hN, d1, d2, d3, d0, d0',
    dI, d4, d5, d6, d7⟩ := slsqpRow_ok true (.kl ⟨XR.fin 1e-18, XR.fin 100000⟩) true isAlpha low hl tf ht fs dir hf s ha z hz hr
  refine ⟨pts, dens, ugbs, S, P, R, A, m, F, I, Pr, fun x => F.constNorm x .none, h1, h2, h3, h4, h4', h5, h6, h7, h8, o1, o2, o3,
    d4, h9,
    by simpa using d5, ?_, h10, ?_⟩
  · intro x hx
    obtain ⟨hP, hc, he⟩ := feasible_split hx
    obtain ⟨v, grad, v1, v2, v3⟩ := func_kl_ok d1 d2 d3 d0 hP (fun a ha => le_trans (by norm_num) (hc a ha))
      fun a ha => le_trans (by norm_num) (he a ha)
    exact ⟨v, grad, by rw [d4]; exact v1, v2, fun h => v3 (d0' h)⟩
  · intro minimize r x res hmin hrx hx hres
    obtain ⟨hP, hc, he⟩ := feasible_split hx
    obtain ⟨v, ⟨p, p1, p2⟩, p3, -⟩ := C43_const_norm d1 hN dI .none x _ _ hP fun _ a ha => le_trans (by norm_num) (he a ha)
    rw [d7 minimize r x res hmin hrx hres] at p1
    simp only [Except.ok.injEq] at p1
    exact ⟨v, by rw [p1]; exact p2, p3⟩

theorem fins_of_all {p : ℝ → Prop} {l : List XR} (h : ∀ v ∈ l, ∃ a : ℝ, v = XR.fin a ∧ p a) :
    ∃ x, l = fins x ∧ ∀ a ∈ x, p a := by
  induction l with
  | nil => exact ⟨[], rfl, by simp⟩
  | cons v l ih =>
    obtain ⟨a, rfl, ha⟩ := h v (by simp)
    obtain ⟨x, rfl, hx⟩ := ih fun v hv => h v (List.mem_cons_of_mem _ hv)
    exact ⟨a :: x, rfl, by simpa using ⟨ha, hx⟩⟩

theorem iodine : HasZ "i".toList 53 := ⟨by norm_num, by decide +kernel⟩

/-- The loop for a single element. -/
theorem slsqpLoop_one (row : Str → ℤ → Option (Except ScriptErr SResult)) (z : ℤ) (s : Str) (r : SResult) :
    slsqpLoop row [(z, s)] = some (.ok [r]) ↔ row s z = some (.ok r) := by
  unfold slsqpLoop
  rcases h : row s z with _ | (e | a) <;> simp [slsqpLoop]

/-- Finite numbers within bounds, one for each pair. -/
def Within (bounds : List (XR × XR)) (l : List XR) : Prop :=
  List.Forall₂ (fun b v => b.1 ≤ v ∧ v ≤ b.2 ∧ ∃ a : ℝ, v = XR.fin a) bounds l

theorem within_iff (n : ℕ) (l : List XR) :
    Within (List.replicate (2 * n) (XR.fin 1e-12, XR.pinf)) l ↔ ∃ x, l = fins x ∧ Feasible n x := by
  constructor
  · intro h
    have hlen := h.length_eq
    rw [List.length_replicate] at hlen
    obtain ⟨x, x1, x2⟩ := fins_of_all (p := fun a => 1e-12 ≤ a) (l := l) (by
      intro v hv
      obtain ⟨i, hi, rfl⟩ := List.mem_iff_getElem.mp hv
      have := h.get (i := i) (by simpa [hlen] using hi) hi
      simp only [List.get_eq_getElem, List.getElem_replicate] at this
      obtain ⟨q1, -, a, q2⟩ := this
      refine ⟨a, q2, ?_⟩
      rw [q2] at q1
      simpa using q1)
    exact ⟨x, x1, by rw [hlen, x1, fins_length], x2⟩
  · rintro ⟨x, rfl, h1, h2⟩
    unfold Within
    rw [← h1]
    clear h1
    induction x with
    | nil => exact .nil
    | cons a x ih =>
      refine .cons ⟨?_, ?_, a, rfl⟩ (ih fun b hb => h2 b (List.mem_cons_of_mem _ hb))
      · simpa using h2 a (by simp)
      · simp

/-- **C130** (scripts).  Both scripts run to their end and print one result, that for iodine, for every optimiser
that answers each problem whose starting point is within the bounds with a finite point within the bounds. -/
theorem C130_scripts (isAlpha : Str → Bool) (hal : ∀ s ∈ symbols, isAlpha s = true) (low : Str → Str)
    (hl : LowersAscii low) (tf : Str → Py XR) (ht : ReadsFloats tf) (fs : Str → Option (List Str)) (dir : Str)
    (hf : HasData fs dir) (minimize : SProblem → Py SRes)
    (hm : ∀ P : SProblem, Within P.bounds P.x0 → ∃ r, minimize P = .ok r ∧ Within P.bounds r.x) :
    (∃ r, table3 minimize isAlpha low tf fs (dir ++ "parse_ugbs.py".toList) = some (.ok [r]) ∧
      ∃ c e : List ℝ, r.coeffs = fins c ∧ r.exps = fins e ∧ c ≠ [] ∧ c.length = e.length ∧ (∀ a ∈ c, 1e-12 ≤ a) ∧
        ∀ a ∈ e, 1e-12 ≤ a) ∧
    ∃ r, table4 minimize isAlpha low tf fs (dir ++ "parse_ugbs.py".toList) = some (.ok [r]) ∧
      ∃ c e : List ℝ, r.coeffs = fins c ∧ r.exps = fins e ∧ c ≠ [] ∧ c.length = e.length ∧ (∀ a ∈ c, 1e-12 ≤ a) ∧
        ∀ a ∈ e, 1e-12 ≤ a := by
  have hlow : low "i".toList = "i".toList := by rw [hl _ (by decide)]; decide
  have hz : HasZ (low "i".toList) 53 := by rw [hlow]; exact iodine
  have ha := hal _ (List.mem_of_getElem? iodine.2)
  have key : ∀ (Pr : SProblem) (n : ℕ) (row : (SProblem → Py SRes) → Option (Except ScriptErr SResult))
      (dens : List ℝ), 0 < n → ScriptProblem Pr n → Reports row Pr n dens → ∃ r, row minimize = some (.ok r) ∧
      ∃ c e : List ℝ, r.coeffs = fins c ∧ r.exps = fins e ∧ c ≠ [] ∧ c.length = e.length ∧ (∀ a ∈ c, 1e-12 ≤ a) ∧
        ∀ a ∈ e, 1e-12 ≤ a := by
    intro Pr n row dens hn hS hR
    obtain ⟨x0, y1, y2⟩ := hS.x0
    obtain ⟨r, r1, r2⟩ := hm Pr (by rw [hS.bounds, within_iff]; exact ⟨x0, y1, y2⟩)
    rw [hS.bounds, within_iff] at r2
    obtain ⟨x, x1, x2⟩ := r2
    obtain ⟨res, q1, q2, q3, -⟩ := hR.answers minimize r x r1 x1 x2
    obtain ⟨hP, hc, he⟩ := feasible_split x2
    refine ⟨res, q1, _, _, q2, q3, ?_, by rw [hP.len.1, hP.len.2], hc, he⟩
    intro h
    have := hP.len.1
    rw [h] at this
    simp at this
    omega
  constructor
  · obtain ⟨pts, dens, ugbs, S, P, R, A, m, F, I, Pr, con, -, -, -, -, -, -, -, -, hS, -, -, -, -, h1, -, -, h2, -⟩ :=
      C130_divergence isAlpha low hl tf ht fs dir hf _ ha 53 hz (by norm_num)
    obtain ⟨r, k1, k2⟩ := key Pr _ _ dens (by have := List.length_pos_of_ne_nil hS; omega) h1 h2
    refine ⟨r, ?_, k2⟩
    have : kinAtoms.drop (kinAtoms.length - 1) = [(53, "i".toList)] := rfl
    unfold table3
    rw [this, slsqpLoop_one]
    exact k1
  · obtain ⟨pts, dens, ugbs, S, P, R, A, m, F, Pr, -, -, -, -, -, -, -, hS, -, -, -, -, h1, -, -, h2⟩ :=
      C130_least_squares isAlpha low hl tf ht fs dir hf _ ha 53 hz (by norm_num)
    obtain ⟨r, k1, k2⟩ := key Pr _ _ dens (by have := List.length_pos_of_ne_nil hS; omega) h1 h2
    refine ⟨r, ?_, k2⟩
    have : kinAtoms.drop 8 = [(53, "i".toList)] := rfl
    unfold table4
    rw [this, slsqpLoop_one]
    exact k1

/-! ### Example -/

/-- With the files in their places and an optimiser that returns its starting point. -/
example : ∃ r, table4 (fun P => .ok ⟨P.x0, XR.fin 0, [], true, ""⟩) (fun _ => true) (fun s => s.map Char.toLower)
    (fun w => .ok (.fin (readSci w))) exampleFiles "/x/parse_ugbs.py".toList = some (.ok [r]) := by
  obtain ⟨-, r, h, -⟩ := C130_scripts (fun _ => true) (fun _ _ => rfl) (fun s => s.map Char.toLower) (fun _ _ => rfl)
    _ reads_floats_example exampleFiles "/x/".toList exampleFiles_hasData
    (fun P => .ok ⟨P.x0, XR.fin 0, [], true, ""⟩) fun P hP => ⟨_, rfl, hP⟩
  exact ⟨r, h⟩

end
end BFit
