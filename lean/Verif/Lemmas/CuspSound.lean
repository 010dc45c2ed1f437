import Verif.Lemmas.CuspScan
import Verif.Lemmas.DataSound
import Verif.Props.SlaterCusp

/-! What the check of the behaviour of the orbitals at the nucleus says. -/

namespace BFit

open Real Set

noncomputable section

theorem cuspNorm_sound {b : BFn} (h : b.good) :
    ((cuspNorm b).1 : ℝ) ≤ 10 ^ 12 * slNorm b.fn ∧ 10 ^ 12 * slNorm b.fn ≤ ((cuspNorm b).2 : ℝ) := by
  have hd : 0 < 100000000 ^ (b.n + 1) := by positivity
  have e1 : (((cuspNorm b).1 : ℕ) : ℝ) = ((b.U / 100000000 ^ (b.n + 1) : ℕ) : ℝ) := rfl
  have e2 : (((cuspNorm b).2 : ℕ) : ℝ) = ((b.V / 100000000 ^ (b.n + 1) : ℕ) : ℝ) + 1 := by
    rw [show (cuspNorm b).2 = b.V / 100000000 ^ (b.n + 1) + 1 from rfl]
    push_cast
    rfl
  have key : 10 ^ 12 * slNorm b.fn * ((100000000 ^ (b.n + 1) : ℕ) : ℝ) =
      (2 * (b.Z : ℝ)) ^ b.n * (10 ^ 16 * sqrt (2 * b.Z / Nat.factorial (2 * b.n))) := by
    rw [slNorm_fn]
    push_cast
    rw [pow_succ (100000000 : ℝ) b.n, show (100000000 : ℝ) = 10 ^ 8 by norm_num]
    have h0 : ((10 : ℝ) ^ 8) ^ b.n ≠ 0 := by positivity
    generalize ((10 : ℝ) ^ 8) ^ b.n = k at *
    generalize sqrt (2 * b.Z / Nat.factorial (2 * b.n)) = s
    field_simp
  have hp : (0 : ℝ) ≤ (2 * (b.Z : ℝ)) ^ b.n := by positivity
  rw [e1, e2]
  constructor
  · refine natDiv_le _ _ _ hd ?_
    rw [key, h.U]
    push_cast
    exact mul_le_mul_of_nonneg_left h.lo hp
  · refine le_natDiv _ _ _ hd ?_
    rw [key, h.V]
    push_cast
    exact mul_le_mul_of_nonneg_left h.hi hp

theorem cuspAB_sound (l : ℕ) {b : BFn} (h : b.good) :
    |10 ^ 20 * nucA l b.fn - snVal (cuspA l b)| ≤
      ((((cuspNorm b).2 - (cuspNorm b).1) * (100000000 + b.Z) : ℕ) : ℝ) ∧
    |10 ^ 20 * nucB l b.fn - snVal (cuspB l b)| ≤
      ((((cuspNorm b).2 - (cuspNorm b).1) * (100000000 + b.Z) : ℕ) : ℝ) := by
  obtain ⟨h1, h2⟩ := cuspNorm_sound h
  have hle : (cuspNorm b).1 ≤ (cuspNorm b).2 := by exact_mod_cast h1.trans h2
  set N := slNorm b.fn with hN
  set lo := (cuspNorm b).1
  set hi := (cuspNorm b).2
  have hZ : (0 : ℝ) ≤ b.Z := Nat.cast_nonneg _
  have h3 : (0 : ℝ) ≤ (hi : ℝ) - lo := by linarith
  push_cast [Nat.cast_sub hle]
  have hA : |10 ^ 20 * N - (lo : ℝ) * 100000000| ≤ ((hi : ℝ) - lo) * (100000000 + b.Z) := by
    rw [abs_le]
    constructor <;> nlinarith [mul_nonneg h3 hZ]
  have hB : |10 ^ 20 * (b.Z / 10 ^ 8 * N) - (lo : ℝ) * b.Z| ≤ ((hi : ℝ) - lo) * (100000000 + b.Z) := by
    have e : 10 ^ 20 * (b.Z / 10 ^ 8 * N) = 10 ^ 12 * N * b.Z := by ring
    rw [e, abs_le]
    have g1 := mul_le_mul_of_nonneg_right h1 hZ
    have g2 := mul_le_mul_of_nonneg_right h2 hZ
    constructor <;> nlinarith [mul_nonneg h3 hZ]
  have h0 : (0 : ℝ) ≤ ((hi : ℝ) - lo) * (100000000 + b.Z) := by positivity
  have hn : b.fn.2 = b.n := rfl
  unfold nucA nucB cuspA cuspB
  rw [hn]
  have q1 : (Nat.beq b.n (Nat.add l 1) = true) = (b.n = l + 1) := by simp
  have q2 : (Nat.beq b.n (Nat.add l 2) = true) = (b.n = l + 2) := by simp
  simp only [q1, q2]
  by_cases c1 : b.n = l + 1
  · simp only [c1, if_true]
    refine ⟨?_, ?_⟩
    · simpa [snVal] using hA
    · rw [show (10 : ℝ) ^ 20 * -(b.fn.1 * slNorm b.fn) - snVal (true, Nat.mul lo b.Z) =
        -(10 ^ 20 * (b.Z / 10 ^ 8 * N) - (lo : ℝ) * b.Z) by simp [snVal, BFn.fn, hN]; ring, abs_neg]
      exact hB
  · simp only [c1, if_false]
    refine ⟨by simpa [snVal] using h0, ?_⟩
    by_cases c2 : b.n = l + 2
    · simp only [c2, if_true]
      simpa [snVal] using hA
    · simp only [c2, if_false]
      simpa [snVal] using h0

theorem zip_scale (k : ℝ) (f : BFn → ℝ) (fs : List BFn) (x : List SN) :
    (List.zipWith (fun u y => u * snVal y) (fs.map fun b => k * f b) x).sum =
      k * 10 ^ 8 * wsum (fs.map f) (x.map cf) := by
  induction fs generalizing x with
  | nil => simp
  | cons b fs ih =>
    cases x with
    | nil => simp
    | cons y x =>
      simp only [List.map_cons, List.zipWith_cons_cons, List.sum_cons, wsum_cons, ih, cf]
      ring

theorem cuspDot_sound (l : ℕ) {fs : List BFn} (hg : ∀ b ∈ fs, b.good) (x : List SN) :
    |10 ^ 28 * wsum ((fs.map BFn.fn).map (nucA l)) (x.map cf) - snVal (dot (fs.map (cuspA l)) x)| ≤
      ((cuspErr fs * absSum x : ℕ) : ℝ) ∧
    |10 ^ 28 * wsum ((fs.map BFn.fn).map (nucB l)) (x.map cf) - snVal (dot (fs.map (cuspB l)) x)| ≤
      ((cuspErr fs * absSum x : ℕ) : ℝ) := by
  have hle : ∀ b ∈ fs, ((((cuspNorm b).2 - (cuspNorm b).1) * (100000000 + b.Z) : ℕ) : ℝ) ≤ (cuspErr fs : ℝ) := by
    intro b hb
    have : (((cuspNorm b).2 - (cuspNorm b).1) * (100000000 + b.Z)) ≤ cuspErr fs :=
      le_maxOf (List.mem_map.mpr ⟨b, hb, rfl⟩)
    exact_mod_cast this
  push_cast
  have e : (10 : ℝ) ^ 28 = 10 ^ 20 * 10 ^ 8 := by norm_num
  constructor
  · have := dot_err (cuspErr fs) (Nat.cast_nonneg _) (fs.map fun b => 10 ^ 20 * nucA l b.fn) (fs.map (cuspA l))
      (by
        rw [List.forall₂_map_left_iff, List.forall₂_map_right_iff]
        exact List.forall₂_same.mpr fun b hb => ((cuspAB_sound l (hg b hb)).1).trans (hle b hb)) x
    rw [zip_scale, ← e] at this
    rw [List.map_map]
    exact this
  · have := dot_err (cuspErr fs) (Nat.cast_nonneg _) (fs.map fun b => 10 ^ 20 * nucB l b.fn) (fs.map (cuspB l))
      (by
        rw [List.forall₂_map_left_iff, List.forall₂_map_right_iff]
        exact List.forall₂_same.mpr fun b hb => ((cuspAB_sound l (hg b hb)).2).trans (hle b hb)) x
    rw [zip_scale, ← e] at this
    rw [List.map_map]
    exact this

theorem dot_two (b a p q : SN) : snVal (dot [b, a] [p, q]) = snVal b * snVal p + snVal a * snVal q := by
  rw [dot_val]
  simp

/-- A combination of approximate numbers. -/
theorem comb_err {α β a b e p q : ℝ} (hp : 0 ≤ p) (ha : |α - a| ≤ e) (hb : |β - b| ≤ e) :
    |p * β + q * α| ≤ |b * p + a * q| + (p + |q|) * e := by
  have e1 : p * β + q * α = (b * p + a * q) + (p * (β - b) + q * (α - a)) := by ring
  rw [e1]
  refine (abs_add_le _ _).trans ?_
  have := abs_add_le (p * (β - b)) (q * (α - a))
  rw [abs_mul, abs_mul, abs_of_nonneg hp] at this
  have h1 := mul_le_mul_of_nonneg_left hb hp
  have h2 := mul_le_mul_of_nonneg_left ha (abs_nonneg q)
  linarith

/-- The cusp `κ` of a function with value `a` and derivative `b` at the nucleus. -/
def CuspIs (z l : ℕ) (t a b κ : ℝ) : Prop :=
  a ≠ 0 ∧ |(l + 1) * b + κ * z * a| ≤ t * z * |a|

theorem cuspOne_sound {z l t : ℕ} {fs : List BFn} (hg : ∀ b ∈ fs, b.good) {x : List SN} {cu : SN}
    (h : cuspOne z l t (cuspErr fs) (fs.map (cuspA l)) (fs.map (cuspB l)) x cu = true) :
    CuspIs z l (t / 10 ^ 5) (wsum ((fs.map BFn.fn).map (nucA l)) (x.map cf))
      (wsum ((fs.map BFn.fn).map (nucB l)) (x.map cf)) (cf cu) := by
  obtain ⟨ha, hb⟩ := cuspDot_sound l hg x
  set A := wsum ((fs.map BFn.fn).map (nucA l)) (x.map cf)
  set B := wsum ((fs.map BFn.fn).map (nucB l)) (x.map cf)
  unfold cuspOne at h
  simp only [Bool.and_eq_true, Nat.ble_eq] at h
  obtain ⟨c1, c2⟩ := h
  set a := dot (fs.map (cuspA l)) x
  set b := dot (fs.map (cuspB l)) x
  set er : ℕ := cuspErr fs * absSum x with her
  have c1' : er + 1 ≤ a.2 := c1
  set p : ℕ := (l + 1) * 100000000 with hp
  set q : ℕ := cu.2 * z with hq
  set g := dot [b, a] [(false, p), (cu.1, q)] with hgdef
  have c2' : (g.2 + (p + q) * er) * 100000 ≤ t * (z * 100000000) * (a.2 - er) := c2
  have e1 : |snVal a| = a.2 := snVal_abs a
  have e2 : |snVal g| = g.2 := snVal_abs g
  have hqv : snVal (cu.1, q) = snVal cu * z := by
    rw [hq]
    unfold snVal
    split <;> push_cast <;> ring
  have hpv : snVal (false, p) = (p : ℝ) := by simp [snVal]
  have hgv : snVal g = snVal b * p + snVal a * (snVal cu * z) := by rw [hgdef, dot_two, hqv, hpv]
  have hqa : |snVal cu * z| = (q : ℝ) := by
    rw [abs_mul, snVal_abs, hq]
    simp
  have habs : (a.2 : ℝ) - er ≤ 10 ^ 28 * |A| := by
    have := abs_sub_abs_le_abs_sub (snVal a) (10 ^ 28 * A)
    rw [abs_sub_comm, e1, abs_mul, abs_of_nonneg (by norm_num : (0 : ℝ) ≤ 10 ^ 28)] at this
    linarith
  have hpos : (1 : ℝ) ≤ (a.2 : ℝ) - er := by
    have : ((er + 1 : ℕ) : ℝ) ≤ a.2 := by exact_mod_cast c1'
    push_cast at this
    linarith
  constructor
  · intro h0
    rw [h0, abs_zero, mul_zero] at habs
    linarith
  · have hc := comb_err (α := 10 ^ 28 * A) (β := 10 ^ 28 * B) (a := snVal a) (b := snVal b) (e := (er : ℝ))
      (p := (p : ℝ)) (q := snVal cu * z) (Nat.cast_nonneg _) ha hb
    rw [← hgv, e2, hqa] at hc
    have c3 : (((g.2 + (p + q) * er) * 100000 : ℕ) : ℝ) ≤ ((t * (z * 100000000) * (a.2 - er) : ℕ) : ℝ) := by
      exact_mod_cast c2'
    push_cast [Nat.cast_sub (show er ≤ a.2 by omega)] at c3
    have e3 : (p : ℝ) * (10 ^ 28 * B) + snVal cu * z * (10 ^ 28 * A) =
        10 ^ 36 * ((l + 1) * B + cf cu * z * A) := by
      rw [hp]
      unfold cf
      push_cast
      ring
    rw [e3, abs_mul, abs_of_nonneg (by norm_num : (0 : ℝ) ≤ 10 ^ 36)] at hc
    have h5 : (t : ℝ) * (z * 100000000) * (a.2 - er) ≤ t * (z * 100000000) * (10 ^ 28 * |A|) :=
      mul_le_mul_of_nonneg_left habs (by positivity)
    have h6 : 10 ^ 36 * |(l + 1) * B + cf cu * z * A| * 100000 ≤ t * (z * 100000000) * (10 ^ 28 * |A|) := by
      refine le_trans ?_ (c3.trans h5)
      exact mul_le_mul_of_nonneg_right hc (by norm_num)
    have h7 : t / 10 ^ 5 * z * |A| = (t * (z * 100000000) * (10 ^ 28 * |A|)) / (10 ^ 36 * 100000) := by ring
    rw [h7, le_div_iff₀ (by norm_num)]
    linarith

theorem cuspAll_sound {z l t : ℕ} {fs : List BFn} (hg : ∀ b ∈ fs, b.good) {xs : List (List SN)} {cs : List SN}
    (h : cuspAll z l t (cuspErr fs) (fs.map (cuspA l)) (fs.map (cuspB l)) xs cs = true) :
    List.Forall₂ (fun x κ => CuspIs z l (t / 10 ^ 5) (wsum ((fs.map BFn.fn).map (nucA l)) x)
      (wsum ((fs.map BFn.fn).map (nucB l)) x) κ) (xs.map fun x => x.map cf) (cs.map cf) := by
  induction xs generalizing cs with
  | nil =>
    cases cs with
    | nil => exact List.Forall₂.nil
    | cons c cs => simp [cuspAll] at h
  | cons x xs ih =>
    cases cs with
    | nil => simp [cuspAll] at h
    | cons c cs =>
      simp only [cuspAll, Bool.and_eq_true] at h
      exact List.Forall₂.cons (cuspOne_sound hg h.1) (ih h.2)

theorem cuspBlock_sound {z : ℕ} {b : DBlock} (h : cuspBlock z b = true) :
    List.Forall₂ (fun i κ => CuspIs z b.sub.l (15 / 10 ^ 5) (wsum (b.basis.map (nucA b.sub.l)) (b.col i))
      (wsum (b.basis.map (nucB b.sub.l)) (b.col i)) κ) (List.range b.count) (b.cusps.map Dec.val) := by
  unfold cuspBlock at h
  cases hf : mapOpt mkFn b.rows with
  | none => rw [hf] at h; exact absurd h (by simp)
  | some fs =>
    rw [hf] at h
    simp only at h
    cases hc : mapOpt (colI b.rows) (List.range b.count) with
    | none => rw [hc] at h; exact absurd h (by simp)
    | some cols =>
      rw [hc] at h
      simp only at h
      cases hk : mapOpt Dec.fix b.cusps with
      | none => rw [hk] at h; exact absurd h (by simp)
      | some cs =>
        rw [hk] at h
        simp only at h
        have hg : ∀ a ∈ fs, a.good := by
          intro a ha
          obtain ⟨r, -, hr⟩ := mapOpt_mem hf a ha
          exact (mkFn_sound hr).1
        have hB : fs.map BFn.fn = b.basis := mapOpt_map hf _ _ fun r _ a ha => (mkFn_sound ha).2
        have hC : cols.map (fun x => x.map cf) = (List.range b.count).map b.col :=
          mapOpt_map hc _ _ fun i _ x hx => colI_sound hx
        have hK : cs.map cf = b.cusps.map Dec.val := mapOpt_map hk _ _ fun d _ k hk => by
          unfold cf
          rw [fix_val hk]
          simp
        have := cuspAll_sound hg h
        rw [hB, hC, hK, List.forall₂_map_left_iff] at this
        exact_mod_cast this

/-! ### The density -/

/-- `Σ n |a| |b + z a|` and `Σ n a²`. -/
def KatoIs (z : ℕ) (w : List (ℕ × ℝ × ℝ)) (u : ℕ × ℕ) : Prop :=
  10 ^ 56 * (w.map fun p => (p.1 : ℝ) * (|p.2.1| * |p.2.2 + (z : ℝ) * p.2.1|)).sum ≤ u.1 ∧
    (u.2 : ℝ) ≤ 10 ^ 56 * (w.map fun p => (p.1 : ℝ) * p.2.1 ^ 2).sum

theorem KatoIs.append {z : ℕ} {w w' : List (ℕ × ℝ × ℝ)} {u u' : ℕ × ℕ} (h : KatoIs z w u) (h' : KatoIs z w' u') :
    KatoIs z (w ++ w') (u.1 + u'.1, u.2 + u'.2) := by
  unfold KatoIs at *
  simp only [List.map_append, List.sum_append]
  push_cast
  constructor <;> linarith [h.1, h.2, h'.1, h'.2]

theorem katoSum_sound {z : ℕ} {fs : List BFn} (hg : ∀ b ∈ fs, b.good) (xs : List (List SN)) (ns : List ℕ)
    (hl : xs.length = ns.length) :
    KatoIs z (List.zipWith (fun x n => (n, wsum ((fs.map BFn.fn).map (nucA 0)) x,
        wsum ((fs.map BFn.fn).map (nucB 0)) x)) (xs.map fun x => x.map cf) ns)
      (katoSum z (cuspErr fs) (fs.map (cuspA 0)) (fs.map (cuspB 0)) xs ns) := by
  induction xs generalizing ns with
  | nil =>
    cases ns with
    | nil => simp [KatoIs, katoSum]
    | cons n ns => simp at hl
  | cons x xs ih =>
    cases ns with
    | nil => simp at hl
    | cons n ns =>
      have i := ih ns (by simpa using hl)
      simp only [List.map_cons, List.zipWith_cons_cons]
      obtain ⟨ha, hb⟩ := cuspDot_sound 0 hg x
      rw [← List.singleton_append]
      set r := katoSum z (cuspErr fs) (fs.map (cuspA 0)) (fs.map (cuspB 0)) xs ns with hr
      set A := wsum ((fs.map BFn.fn).map (nucA 0)) (x.map cf)
      set B := wsum ((fs.map BFn.fn).map (nucB 0)) (x.map cf)
      set a := dot (fs.map (cuspA 0)) x with hadef
      set b := dot (fs.map (cuspB 0)) x with hbdef
      set er : ℕ := cuspErr fs * absSum x with her
      set g := dot [b, a] [(false, 1), (false, z)] with hgdef
      have e0 : katoSum z (cuspErr fs) (fs.map (cuspA 0)) (fs.map (cuspB 0)) (x :: xs) (n :: ns) =
        (n * ((a.2 + er) * (g.2 + (1 + z) * er)) + r.1, n * ((a.2 - er) * (a.2 - er)) + r.2) := rfl
      rw [e0]
      refine KatoIs.append (u := (n * ((a.2 + er) * (g.2 + (1 + z) * er)), n * ((a.2 - er) * (a.2 - er)))) ?_ i
      have e1 : |snVal a| = a.2 := snVal_abs a
      have e2 : |snVal g| = g.2 := snVal_abs g
      have hgv : snVal g = snVal b * 1 + snVal a * z := by
        rw [hgdef, dot_two]
        simp [snVal]
      have k1 : 10 ^ 28 * |A| ≤ (a.2 : ℝ) + er := by
        have := abs_sub_abs_le_abs_sub (10 ^ 28 * A) (snVal a)
        rw [e1, abs_mul, abs_of_nonneg (by norm_num : (0 : ℝ) ≤ 10 ^ 28)] at this
        linarith
      have k2 : ((a.2 - er : ℕ) : ℝ) ≤ 10 ^ 28 * |A| := by
        by_cases hle : er ≤ a.2
        · have := abs_sub_abs_le_abs_sub (snVal a) (10 ^ 28 * A)
          rw [abs_sub_comm, e1, abs_mul, abs_of_nonneg (by norm_num : (0 : ℝ) ≤ 10 ^ 28)] at this
          rw [Nat.cast_sub hle]
          linarith
        · rw [Nat.sub_eq_zero_of_le (by omega)]
          simp
      have k3 : 10 ^ 28 * |B + z * A| ≤ (g.2 : ℝ) + (1 + z) * er := by
        have hc := comb_err (α := 10 ^ 28 * A) (β := 10 ^ 28 * B) (a := snVal a) (b := snVal b) (e := (er : ℝ))
          (p := 1) (q := (z : ℝ)) (by norm_num) ha hb
        rw [← hgv, e2, Nat.abs_cast, show 1 * (10 ^ 28 * B) + (z : ℝ) * (10 ^ 28 * A) = 10 ^ 28 * (B + z * A) by ring,
          abs_mul, abs_of_nonneg (by norm_num : (0 : ℝ) ≤ 10 ^ 28)] at hc
        exact hc
      have hn : (0 : ℝ) ≤ n := Nat.cast_nonneg _
      unfold KatoIs
      simp only [List.map_cons, List.map_nil, List.sum_cons, List.sum_nil, add_zero]
      push_cast
      constructor
      · have := mul_le_mul k1 k3 (by positivity) (by positivity)
        have := mul_le_mul_of_nonneg_left this hn
        calc _ = (n : ℝ) * (10 ^ 28 * |A| * (10 ^ 28 * |B + z * A|)) := by ring
          _ ≤ _ := this
      · have := mul_le_mul k2 k2 (Nat.cast_nonneg _) (by positivity)
        have := mul_le_mul_of_nonneg_left this hn
        calc _ ≤ (n : ℝ) * (10 ^ 28 * |A| * (10 ^ 28 * |A|)) := this
          _ = _ := by
            rw [← sq_abs A]
            ring

/-- Occupation, value and slope at the nucleus of the orbitals of a table. -/
def DBlock.nuc (items : List CfgItem) (b : DBlock) : List (ℕ × ℝ × ℝ) :=
  (List.range b.count).map fun i => (occC items ⟨b.sub.l + 1 + i, b.sub⟩,
    wsum (b.basis.map (nucA 0)) (b.col i), wsum (b.basis.map (nucB 0)) (b.col i))

theorem katoBlock_sound {z : ℕ} {items : List CfgItem} {b : DBlock} {u : ℕ × ℕ}
    (hn : ∀ r ∈ b.rows, b.sub.l + 1 ≤ r.n) (h : katoBlock z items b = some u) : KatoIs z (b.nuc items) u := by
  by_cases hs : b.sub = .S
  · unfold katoBlock at h
    rw [hs] at h
    simp only at h
    cases hf : mapOpt mkFn b.rows with
    | none => rw [hf] at h; exact absurd h (by simp)
    | some fs =>
      rw [hf] at h
      simp only at h
      cases hc : mapOpt (colI b.rows) (List.range b.count) with
      | none => rw [hc] at h; exact absurd h (by simp)
      | some cols =>
        rw [hc] at h
        simp only [Option.some.injEq] at h
        have hg : ∀ a ∈ fs, a.good := by
          intro a ha
          obtain ⟨r, -, hr⟩ := mapOpt_mem hf a ha
          exact (mkFn_sound hr).1
        have hB : fs.map BFn.fn = b.basis := mapOpt_map hf _ _ fun r _ a ha => (mkFn_sound ha).2
        have hC : cols.map (fun x => x.map cf) = (List.range b.count).map b.col :=
          mapOpt_map hc _ _ fun i _ x hx => colI_sound hx
        have hlen : cols.length = b.count := by simpa using congrArg List.length hC
        have := katoSum_sound (z := z) hg cols
          ((List.range b.count).map fun i => occC items ⟨Sub.S.l + 1 + i, .S⟩) (by simp [hlen])
        rw [h, hB, hC, List.zipWith_map, List.zipWith_self] at this
        unfold DBlock.nuc
        rw [hs]
        exact this
  · have hl : b.sub.l ≠ 0 := by
      intro h0
      apply hs
      revert h0
      cases b.sub <;> simp [Sub.l]
    have hu : u = (0, 0) := by
      unfold katoBlock at h
      revert h
      cases hb : b.sub <;> simp_all
    have hz : b.basis.map (nucA 0) = b.basis.map fun _ => (0 : ℝ) := by
      apply List.map_congr_left
      intro f hf
      obtain ⟨r, hr, rfl⟩ := List.mem_map.mp hf
      have := hn r hr
      unfold nucA
      rw [if_neg]
      simp only
      omega
    have hw : ∀ (l : List (ℝ × ℕ)) (c : List ℝ), wsum (l.map fun _ => (0 : ℝ)) c = 0 := by
      intro l
      induction l with
      | nil => simp
      | cons x l ih =>
        intro c
        cases c with
        | nil => simp
        | cons y c => rw [List.map_cons, wsum_cons, ih, zero_mul, add_zero]
    have hnuc : ∀ p ∈ b.nuc items, p.2.1 = 0 := by
      intro p hp
      obtain ⟨i, -, rfl⟩ := List.mem_map.mp hp
      simp only
      rw [hz, hw]
    rw [hu]
    unfold KatoIs
    rw [List.map_congr_left (g := fun _ => (0 : ℝ)) (fun p hp => by rw [hnuc p hp]; simp),
      List.map_congr_left (f := fun p : ℕ × ℝ × ℝ => (p.1 : ℝ) * p.2.1 ^ 2) (g := fun _ => (0 : ℝ))
        (fun p hp => by rw [hnuc p hp]; simp)]
    simp

theorem katoBlocks_sound {z : ℕ} {items : List CfgItem} {bs : List DBlock} {u : ℕ × ℕ}
    (hn : ∀ b ∈ bs, ∀ r ∈ b.rows, b.sub.l + 1 ≤ r.n) (h : katoBlocks z items bs = some u) :
    KatoIs z (bs.flatMap (DBlock.nuc items)) u := by
  induction bs generalizing u with
  | nil =>
    simp only [katoBlocks, Option.some.injEq] at h
    subst h
    simp [KatoIs]
  | cons b bs ih =>
    rw [katoBlocks] at h
    cases hb : katoBlock z items b with
    | none => rw [hb] at h; exact absurd h (by simp)
    | some u1 =>
      rw [hb] at h
      simp only at h
      cases hbs : katoBlocks z items bs with
      | none => rw [hbs] at h; exact absurd h (by simp)
      | some u2 =>
        rw [hbs] at h
        simp only [Option.some.injEq] at h
        subst h
        rw [List.flatMap_cons]
        exact KatoIs.append (katoBlock_sound (hn b (by simp)) hb) (ih (fun b' hb' => hn b' (by simp [hb'])) hbs)

/-- The cusp condition of the density from the sums. -/
theorem kato_of_sums {z : ℕ} {w : List (ℕ × ℝ × ℝ)} {u : ℕ × ℕ} (h : KatoIs z w u) (h1 : 1 ≤ u.2)
    (h2 : u.1 * 1000 ≤ z * u.2) :
    0 < (w.map fun p => (p.1 : ℝ) * p.2.1 ^ 2).sum ∧
    |(w.map fun p => (p.1 : ℝ) * (2 * p.2.1 * p.2.2)).sum + 2 * z * (w.map fun p => (p.1 : ℝ) * p.2.1 ^ 2).sum| ≤
      2e-3 * z * (w.map fun p => (p.1 : ℝ) * p.2.1 ^ 2).sum := by
  obtain ⟨ha, hb⟩ := h
  have hu1 : (1 : ℝ) ≤ u.2 := by exact_mod_cast h1
  have hu2 : (u.1 : ℝ) * 1000 ≤ z * u.2 := by exact_mod_cast h2
  have hz : (0 : ℝ) ≤ z := Nat.cast_nonneg _
  have e : (w.map fun p => (p.1 : ℝ) * (2 * p.2.1 * p.2.2)).sum +
      2 * z * (w.map fun p => (p.1 : ℝ) * p.2.1 ^ 2).sum =
      2 * (w.map fun p => (p.1 : ℝ) * (p.2.1 * (p.2.2 + (z : ℝ) * p.2.1))).sum := by
    clear ha hb
    induction w with
    | nil => simp
    | cons p w ih =>
      simp only [List.map_cons, List.sum_cons]
      linear_combination ih
  have k : |(w.map fun p => (p.1 : ℝ) * (p.2.1 * (p.2.2 + (z : ℝ) * p.2.1))).sum| ≤
      (w.map fun p => (p.1 : ℝ) * (|p.2.1| * |p.2.2 + (z : ℝ) * p.2.1|)).sum := by
    clear ha hb e
    induction w with
    | nil => simp
    | cons p w ih =>
      simp only [List.map_cons, List.sum_cons]
      refine (abs_add_le _ _).trans (add_le_add ?_ ih)
      rw [abs_mul, abs_mul, Nat.abs_cast]
  refine ⟨by nlinarith, ?_⟩
  rw [e, abs_mul, abs_two]
  have := mul_le_mul_of_nonneg_left hb hz
  nlinarith

end
end BFit
