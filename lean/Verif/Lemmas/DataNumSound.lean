import Verif.Lemmas.DataScanSound
import Verif.Lemmas.DataNum
import Verif.Props.SlaterEnergy

/-! Soundness of the arithmetic with error bounds. -/

namespace BFit

open Real

noncomputable section

/-! ### Signed numbers -/

/-- The number. -/
def snVal (x : SN) : ℝ := if x.1 then -(x.2 : ℝ) else x.2

theorem snVal_abs (x : SN) : |snVal x| = x.2 := by
  obtain ⟨s, a⟩ := x
  cases s <;> simp [snVal]

theorem sgn_val (p n : ℕ) : snVal (sgn p n) = (p : ℝ) - n := by
  unfold sgn
  split
  · next h =>
    have h' : n ≤ p := Nat.le_of_ble_eq_true h
    simp [snVal, Nat.cast_sub h']
  · next h =>
    have h' : p ≤ n := by
      by_contra hc
      exact h (Nat.ble_eq_true_of_le (not_le.mp hc).le)
    simp [snVal, Nat.cast_sub h']

theorem dotAux_cons (x y : SN) (xs ys : List SN) (p n : ℕ) :
    dotAux (x :: xs) (y :: ys) p n =
      if x.1 = y.1 then dotAux xs ys (p + x.2 * y.2) n else dotAux xs ys p (n + x.2 * y.2) := by
  obtain ⟨s, a⟩ := x
  obtain ⟨t, b⟩ := y
  cases s <;> cases t <;> rfl

theorem dotAux_val (xs ys : List SN) (p n : ℕ) :
    snVal (dotAux xs ys p n) = (List.zipWith (fun x y => snVal x * snVal y) xs ys).sum + (p - n) := by
  induction xs generalizing ys p n with
  | nil =>
    change snVal (sgn p n) = _
    simp [sgn_val]
  | cons x xs ih =>
    cases ys with
    | nil =>
      change snVal (sgn p n) = _
      simp [sgn_val]
    | cons y ys =>
      rw [dotAux_cons, List.zipWith_cons_cons, List.sum_cons]
      obtain ⟨s, a⟩ := x
      obtain ⟨t, b⟩ := y
      cases s <;> cases t <;> simp only [ih, if_true, reduceCtorEq, if_false] <;> push_cast <;> simp [snVal] <;> ring

theorem dot_val (xs ys : List SN) :
    snVal (dot xs ys) = (List.zipWith (fun x y => snVal x * snVal y) xs ys).sum := by
  unfold dot
  rw [dotAux_val]
  simp

theorem dot_comm (xs ys : List SN) : snVal (dot xs ys) = snVal (dot ys xs) := by
  rw [dot_val, dot_val, List.zipWith_comm]
  simp only [mul_comm]

theorem absSum_cons (x : SN) (xs : List SN) : absSum (x :: xs) = x.2 + absSum xs := rfl

theorem maxOf_cons (x : ℕ) (xs : List ℕ) : maxOf (x :: xs) = max x (maxOf xs) := by
  change (if Nat.ble x (maxOf xs) then maxOf xs else x) = _
  split
  · next h => rw [max_eq_right (Nat.le_of_ble_eq_true h)]
  · next h =>
    rw [max_eq_left]
    by_contra hc
    exact h (Nat.ble_eq_true_of_le (not_le.mp hc).le)

theorem le_maxOf {xs : List ℕ} {x : ℕ} (h : x ∈ xs) : x ≤ maxOf xs := by
  induction xs with
  | nil => simp at h
  | cons y ys ih =>
    rw [maxOf_cons]
    rcases List.mem_cons.mp h with rfl | h
    · exact le_max_left _ _
    · exact (ih h).trans (le_max_right _ _)

/-- Sums of products with approximate numbers. -/
theorem dot_err (e : ℝ) (he : 0 ≤ e) (us : List ℝ) (es : List SN)
    (h : List.Forall₂ (fun u x => |u - snVal x| ≤ e) us es) (ys : List SN) :
    |(List.zipWith (fun u y => u * snVal y) us ys).sum - snVal (dot es ys)| ≤ e * absSum ys := by
  rw [dot_val]
  induction h generalizing ys with
  | nil => simpa using mul_nonneg he (Nat.cast_nonneg _)
  | cons h0 h ih =>
    cases ys with
    | nil => simpa using mul_nonneg he (Nat.cast_nonneg _)
    | cons y ys =>
      simp only [List.zipWith_cons_cons, List.sum_cons, absSum_cons]
      have h1 := ih ys
      push_cast
      rw [← snVal_abs y, mul_add]
      refine le_trans ?_ (add_le_add (mul_le_mul_of_nonneg_right h0 (abs_nonneg (snVal y))) h1)
      rw [← abs_mul]
      refine le_trans (le_of_eq ?_) (abs_add_le _ _)
      congr 1
      ring

theorem fix_val {d : Dec} {k : SN} (h : d.fix = some k) : snVal k = 10 ^ 8 * d.val := by
  unfold Dec.fix at h
  split at h
  · next hs =>
    have e : (10 : ℝ) ^ 8 = 10 ^ (8 - d.scale) * 10 ^ d.scale := by
      rw [← pow_add]
      congr 1
      omega
    have h10 : (10 : ℝ) ^ d.scale ≠ 0 := by positivity
    simp only [Option.some.injEq] at h
    unfold Dec.val
    rw [← h, e]
    unfold snVal
    cases d.neg with
    | true =>
      simp only [if_true]
      push_cast
      field_simp
    | false =>
      simp only [Bool.false_eq_true, if_false]
      push_cast
      field_simp
  · exact absurd h (by simp)

/-! ### Slater functions -/

/-- What `mkFn` checks. -/
structure BFn.good (b : BFn) : Prop where
  posZ : 0 < b.Z
  posn : 1 ≤ b.n
  lo : (b.m : ℝ) ≤ 10 ^ 16 * sqrt (2 * b.Z / Nat.factorial (2 * b.n))
  hi : 10 ^ 16 * sqrt (2 * b.Z / Nat.factorial (2 * b.n)) ≤ b.m + 1
  U : b.U = (2 * b.Z) ^ b.n * b.m
  V : b.V = (2 * b.Z) ^ b.n * (b.m + 1)

/-- The Slater function. -/
def BFn.fn (b : BFn) : ℝ × ℕ := ((b.Z : ℝ) / 10 ^ 8, b.n)

theorem sqrt_bounds {m Z f : ℕ} (hf : 0 < f) (h1 : m * m * f ≤ 2 * Z * 10 ^ 32)
    (h2 : 2 * Z * 10 ^ 32 ≤ (m + 1) * (m + 1) * f) :
    (m : ℝ) ≤ 10 ^ 16 * sqrt (2 * Z / f) ∧ 10 ^ 16 * sqrt (2 * Z / f) ≤ (m : ℝ) + 1 := by
  have hf' : (0 : ℝ) < f := by exact_mod_cast hf
  have h1' : (m : ℝ) * m * f ≤ 2 * Z * 10 ^ 32 := by exact_mod_cast h1
  have h2' : 2 * (Z : ℝ) * 10 ^ 32 ≤ (m + 1) * (m + 1) * f := by exact_mod_cast h2
  have e : (10 : ℝ) ^ 16 * sqrt (2 * Z / f) = sqrt (2 * Z * 10 ^ 32 / f) := by
    rw [show 2 * (Z : ℝ) * 10 ^ 32 / f = (10 ^ 16) ^ 2 * (2 * Z / f) by ring, sqrt_mul (by positivity),
      sqrt_sq (by positivity)]
  rw [e]
  constructor
  · apply le_sqrt_of_sq_le
    rw [le_div_iff₀ hf']
    nlinarith
  · rw [sqrt_le_left (by positivity), div_le_iff₀ hf']
    nlinarith

theorem mkFn_sound {r : DRow} {b : BFn} (h : mkFn r = some b) : b.good ∧ b.fn = (r.z.val, r.n) := by
  unfold mkFn at h
  split at h
  · next Z hZ =>
    simp only at h
    split at h
    · next hc =>
      simp only [Bool.and_eq_true, Nat.ble_eq] at hc
      obtain ⟨⟨⟨c1, c2⟩, c3⟩, c4⟩ := hc
      simp only [Option.some.injEq] at h
      subst h
      obtain ⟨s1, s2⟩ := sqrt_bounds (Nat.factorial_pos _) c1 c2
      refine ⟨⟨c3, c4, s1, s2, rfl, rfl⟩, ?_⟩
      have := fix_val hZ
      unfold BFn.fn
      simp only [snVal, Bool.false_eq_true, if_false] at this
      rw [this]
      simp
    · exact absurd h (by simp)
  · exact absurd h (by simp)

theorem slNorm_fn (b : BFn) :
    slNorm b.fn = (2 * (b.Z : ℝ)) ^ b.n / (10 ^ 8) ^ b.n * (sqrt (2 * b.Z / Nat.factorial (2 * b.n)) / 10 ^ 4) := by
  unfold slNorm BFn.fn
  simp only
  rw [show 2 * ((b.Z : ℝ) / 10 ^ 8) / (Nat.factorial (2 * b.n) : ℝ) =
    (2 * b.Z / Nat.factorial (2 * b.n)) / (10 ^ 4) ^ 2 by ring, sqrt_div (by positivity),
    sqrt_sq (by positivity), ← mul_div_assoc 2 (b.Z : ℝ) (10 ^ 8), div_pow]

theorem natDiv_le (a b : ℕ) (x : ℝ) (hb : 0 < b) (h : (a : ℝ) ≤ x * b) : ((a / b : ℕ) : ℝ) ≤ x := by
  have hb' : (0 : ℝ) < b := by exact_mod_cast hb
  have h1 : ((a / b : ℕ) : ℝ) * b ≤ a := by exact_mod_cast Nat.div_mul_le_self a b
  exact le_of_mul_le_mul_right (h1.trans h) hb'

theorem le_natDiv (a b : ℕ) (x : ℝ) (hb : 0 < b) (h : x * b ≤ a) : x ≤ ((a / b : ℕ) : ℝ) + 1 := by
  have hb' : (0 : ℝ) < b := by exact_mod_cast hb
  have h1 : (a : ℝ) ≤ ((a / b : ℕ) + 1) * b := by
    have := Nat.lt_div_mul_add (a := a) hb
    have h2 : a ≤ (a / b + 1) * b := by
      rw [add_mul, one_mul]
      exact this.le
    exact_mod_cast h2
  exact le_of_mul_le_mul_right (h.trans h1) hb'

theorem slOverlap_fn {a b : BFn} (ha : a.good) :
    10 ^ 20 * slOverlap a.fn b.fn * (((a.Z : ℝ) + b.Z) ^ (a.n + b.n + 1) * 10 ^ 12) =
      (2 * (a.Z : ℝ)) ^ a.n * (10 ^ 16 * sqrt (2 * a.Z / Nat.factorial (2 * a.n))) *
        ((2 * (b.Z : ℝ)) ^ b.n * (10 ^ 16 * sqrt (2 * b.Z / Nat.factorial (2 * b.n)))) *
        Nat.factorial (a.n + b.n) := by
  have hZ : 0 < a.Z + b.Z := Nat.add_pos_left ha.posZ _
  have hZ' : (a.Z : ℝ) + b.Z ≠ 0 := by
    have : (0 : ℝ) < a.Z + b.Z := by exact_mod_cast hZ
    exact this.ne'
  unfold slOverlap
  rw [slNorm_fn, slNorm_fn]
  unfold BFn.fn
  simp only
  rw [← add_div, div_pow, pow_add (10 ^ 8 : ℝ), pow_add (10 ^ 8 : ℝ)]
  field_simp

theorem ovI_sound {a b : BFn} (ha : a.good) (hb : b.good) :
    ((ovI a b).1 : ℝ) ≤ 10 ^ 20 * slOverlap a.fn b.fn ∧ 10 ^ 20 * slOverlap a.fn b.fn ≤ (ovI a b).2 := by
  have hZ : 0 < a.Z + b.Z := Nat.add_pos_left ha.posZ _
  have hd : 0 < (a.Z + b.Z) ^ (a.n + b.n + 1) * 1000000000000 := by positivity
  have e := slOverlap_fn (b := b) ha
  have e1 : (((a.Z + b.Z) ^ (a.n + b.n + 1) * 1000000000000 : ℕ) : ℝ) =
      ((a.Z : ℝ) + b.Z) ^ (a.n + b.n + 1) * 10 ^ 12 := by
    push_cast
    norm_num
  have pa : (0 : ℝ) ≤ (2 * (a.Z : ℝ)) ^ a.n := by positivity
  have pb : (0 : ℝ) ≤ (2 * (b.Z : ℝ)) ^ b.n := by positivity
  have pf : (0 : ℝ) ≤ Nat.factorial (a.n + b.n) := Nat.cast_nonneg _
  have e2 : (((a.Z.add b.Z).pow ((a.n.add b.n).add 1)).mul 1000000000000 : ℕ) =
      (a.Z + b.Z) ^ (a.n + b.n + 1) * 1000000000000 := rfl
  constructor
  · refine natDiv_le (a.U * b.U * Nat.factorial (a.n + b.n)) _ _ hd ?_
    rw [e2, e1, e, ha.U, hb.U]
    push_cast
    refine mul_le_mul_of_nonneg_right ?_ pf
    exact mul_le_mul (mul_le_mul_of_nonneg_left ha.lo pa) (mul_le_mul_of_nonneg_left hb.lo pb) (by positivity)
      (by positivity)
  · have := le_natDiv (a.V * b.V * Nat.factorial (a.n + b.n)) _ (10 ^ 20 * slOverlap a.fn b.fn) hd (by
      rw [e1, e, ha.V, hb.V]
      push_cast
      refine mul_le_mul_of_nonneg_right ?_ pf
      exact mul_le_mul (mul_le_mul_of_nonneg_left ha.hi pa) (mul_le_mul_of_nonneg_left hb.hi pb) (by positivity)
        (by positivity))
    refine this.trans (le_of_eq ?_)
    change _ = ((a.V * b.V * Nat.factorial (a.n + b.n) / ((a.Z + b.Z) ^ (a.n + b.n + 1) * 1000000000000) + 1 : ℕ) : ℝ)
    push_cast
    rfl

theorem kinI_sound (l : ℕ) {a b : BFn} (ha : a.good) (hb : b.good) {o e : ℕ}
    (ho : |10 ^ 20 * slOverlap a.fn b.fn - o| ≤ (e : ℝ)) :
    |10 ^ 20 * slKin l a.fn b.fn - snVal (kinI l a b o e).1| ≤ ((kinI l a b o e).2 : ℝ) := by
  obtain ⟨m, hm⟩ : ∃ m, a.n = m + 1 := ⟨a.n - 1, by have := ha.posn; omega⟩
  obtain ⟨n, hn⟩ : ∃ n, b.n = n + 1 := ⟨b.n - 1, by have := hb.posn; omega⟩
  have hZ : 0 < a.Z + b.Z := Nat.add_pos_left ha.posZ _
  have hZ' : (a.Z : ℝ) + b.Z ≠ 0 := by
    have : (0 : ℝ) < a.Z + b.Z := by exact_mod_cast hZ
    exact this.ne'
  set x : ℕ := (m * n + l * (l + 1)) * ((a.Z + b.Z) * (a.Z + b.Z)) + a.Z * b.Z * ((m + n + 1) * (m + n + 2)) with hx
  set y : ℕ := (m * b.Z + n * a.Z) * (m + n + 1) * (a.Z + b.Z) with hy
  set d : ℕ := (m + n + 2) * (m + n + 1) * 10000000000000000 with hd
  have hdpos : 0 < d := by positivity
  have hd' : (0 : ℝ) < d := by exact_mod_cast hdpos
  have ek : kinI l a b o e = (sgn (o * x / d) (o * y / d), e * (x + y) / d + 2) := by
    unfold kinI
    have e1 : m + 1 + (n + 1) = m + n + 2 := by omega
    have e2 : ∀ i j : ℕ, Nat.div i j = i / j := fun _ _ => rfl
    simp only [hm, hn, hx, hy, hd, e2, Nat.add_eq, Nat.mul_eq, Nat.sub_eq, Nat.add_sub_cancel, e1,
      show m + n + 2 - 1 = m + n + 1 by omega]
  have es : slKin l a.fn b.fn = slOverlap a.fn b.fn * (((x : ℝ) - y) / d) := by
    unfold slKin slOverlap BFn.fn
    simp only
    rw [hm, hn, hx, hy, hd, show m + 1 + (n + 1) - 2 = m + n by omega, show m + 1 + (n + 1) - 1 = m + n + 1 by omega,
      show m + 1 + (n + 1) = m + n + 2 by omega, ← add_div, Nat.factorial_succ (m + n + 1),
      Nat.factorial_succ (m + n)]
    push_cast
    generalize slNorm _ = na
    generalize slNorm _ = nb
    generalize (Nat.factorial (m + n) : ℝ) = F
    simp only [div_pow, pow_succ, pow_add]
    field_simp
    ring
  rw [ek]
  simp only
  rw [sgn_val, es]
  have f1 : ((o * x / d : ℕ) : ℝ) ≤ (o : ℝ) * x / d := natDiv_le _ _ _ hdpos (by
    rw [div_mul_cancel₀ _ hd'.ne']
    push_cast
    exact le_refl _)
  have f2 : (o : ℝ) * x / d ≤ ((o * x / d : ℕ) : ℝ) + 1 := le_natDiv _ _ _ hdpos (by
    rw [div_mul_cancel₀ _ hd'.ne']
    push_cast
    exact le_refl _)
  have g1 : ((o * y / d : ℕ) : ℝ) ≤ (o : ℝ) * y / d := natDiv_le _ _ _ hdpos (by
    rw [div_mul_cancel₀ _ hd'.ne']
    push_cast
    exact le_refl _)
  have g2 : (o : ℝ) * y / d ≤ ((o * y / d : ℕ) : ℝ) + 1 := le_natDiv _ _ _ hdpos (by
    rw [div_mul_cancel₀ _ hd'.ne']
    push_cast
    exact le_refl _)
  have h2 : (e : ℝ) * (x + y) / d ≤ ((e * (x + y) / d : ℕ) : ℝ) + 1 := le_natDiv _ _ _ hdpos (by
    rw [div_mul_cancel₀ _ hd'.ne']
    push_cast
    exact le_refl _)
  have h3 : |(10 ^ 20 * slOverlap a.fn b.fn - o) * (((x : ℝ) - y) / d)| ≤ (e : ℝ) * (x + y) / d := by
    rw [abs_mul, mul_div_assoc]
    refine mul_le_mul ho ?_ (abs_nonneg _) (Nat.cast_nonneg _)
    rw [abs_div, abs_of_pos hd']
    refine div_le_div_of_nonneg_right ?_ hd'.le
    rw [abs_le]
    have hx0 : (0 : ℝ) ≤ x := Nat.cast_nonneg _
    have hy0 : (0 : ℝ) ≤ y := Nat.cast_nonneg _
    constructor <;> linarith
  have e4 : 10 ^ 20 * (slOverlap a.fn b.fn * (((x : ℝ) - y) / d)) =
      (10 ^ 20 * slOverlap a.fn b.fn - o) * (((x : ℝ) - y) / d) + ((o : ℝ) * x / d - o * y / d) := by
    field_simp
    ring
  rw [e4]
  obtain ⟨h4, h5⟩ := abs_le.mp h3
  rw [abs_le]
  push_cast at *
  constructor <;> linarith

/-! ### Forms -/

/-- The coefficient. -/
def cf (k : SN) : ℝ := snVal k / 10 ^ 8

/-- A matrix with error `e`. -/
def MatErr (e : ℕ) (v : ℝ × ℕ → ℝ × ℕ → ℝ) (bs : List BFn) (m : List (List SN)) : Prop :=
  List.Forall₂ (fun a row => List.Forall₂ (fun b x => |10 ^ 20 * v (BFn.fn a) (BFn.fn b) - snVal x| ≤ (e : ℝ)) bs row) bs m

theorem form_err {e : ℕ} {v : ℝ × ℕ → ℝ × ℕ → ℝ} {bs : List BFn} {m : List (List SN)} (h : MatErr e v bs m)
    (x y : List SN) :
    |10 ^ 36 * bilin v (bs.map BFn.fn) (x.map cf) (bs.map BFn.fn) (y.map cf) -
      snVal (dot x (m.map fun r => dot r y))| ≤ (e : ℝ) * (absSum x * absSum y) := by
  set us : List ℝ := bs.map fun a => (List.zipWith (fun b t => 10 ^ 20 * v a.fn b.fn * snVal t) bs y).sum with hus
  have h1 : List.Forall₂ (fun u z => |u - snVal z| ≤ (e : ℝ) * absSum y) us (m.map fun r => dot r y) := by
    rw [hus, List.forall₂_map_left_iff, List.forall₂_map_right_iff]
    refine h.imp fun a row hr => ?_
    have := dot_err e (Nat.cast_nonneg _) (bs.map fun b => 10 ^ 20 * v a.fn b.fn) row
      (List.forall₂_map_left_iff.mpr hr) y
    rwa [List.zipWith_map_left] at this
  have h2 := dot_err ((e : ℝ) * absSum y) (mul_nonneg (Nat.cast_nonneg _) (Nat.cast_nonneg _)) us _ h1 x
  rw [dot_comm x]
  have e1 : 10 ^ 36 * bilin v (bs.map BFn.fn) (x.map cf) (bs.map BFn.fn) (y.map cf) =
      (List.zipWith (fun u t => u * snVal t) us x).sum := by
    rw [hus, List.zipWith_map_left]
    unfold bilin
    rw [List.zipWith_map]
    have inner : ∀ (a : BFn) (s : SN) (cs : List BFn) (z : List SN),
        (List.zipWith (fun b t => cf s * t * v a.fn b) (cs.map BFn.fn) (z.map cf)).sum =
        (List.zipWith (fun b t => 10 ^ 20 * v a.fn b.fn * snVal t) cs z).sum * snVal s / 10 ^ 36 := by
      intro a s cs
      induction cs with
      | nil => intro z; simp
      | cons c cs ih =>
        intro z
        cases z with
        | nil => simp
        | cons t z =>
          simp only [List.map_cons, List.zipWith_cons_cons, List.sum_cons, ih]
          unfold cf
          ring
    simp only [inner]
    generalize bs = as at *
    clear h1 h2 h hus us
    have : ∀ (as : List BFn) (bs : List BFn) (x : List SN), 10 ^ 36 * (List.zipWith (fun (a : BFn) (s : SN) =>
        (List.zipWith (fun b t => 10 ^ 20 * v a.fn b.fn * snVal t) bs y).sum * snVal s / 10 ^ 36) as x).sum =
        (List.zipWith (fun (a : BFn) (s : SN) =>
          (List.zipWith (fun b t => 10 ^ 20 * v a.fn b.fn * snVal t) bs y).sum * snVal s) as x).sum := by
      intro as bs
      induction as with
      | nil => intro x; simp
      | cons a as ih =>
        intro x
        cases x with
        | nil => simp
        | cons s x =>
          simp only [List.zipWith_cons_cons, List.sum_cons, mul_add, ih]
          congr 1
          ring
    exact this as as x
  rw [e1]
  calc _ ≤ (e : ℝ) * absSum y * absSum x := h2
    _ = _ := by ring

/-- Overlap of two orbitals of a table. -/
def ovOf (bs : List (ℝ × ℕ)) (x y : List ℝ) : ℝ := bilin slOverlap bs x bs y

theorem forall₂_self_map {α β : Type} {R : α → β → Prop} {f : α → β} {l : List α} (h : ∀ a ∈ l, R a (f a)) :
    List.Forall₂ R l (l.map f) := by
  rw [List.forall₂_map_right_iff, List.forall₂_same]
  exact h

theorem ov_err {bs : List BFn} (hb : ∀ b ∈ bs, b.good) : ∀ a ∈ bs, ∀ b ∈ bs,
    |10 ^ 20 * slOverlap a.fn b.fn - (ovI a b).1| ≤ (ovErr (ovMat bs) : ℝ) := by
  intro a ha b hb'
  obtain ⟨h1, h2⟩ := ovI_sound (hb a ha) (hb b hb')
  have h3 : (ovI a b).2 - (ovI a b).1 ≤ ovErr (ovMat bs) := by
    unfold ovErr ovMat
    rw [List.map_map]
    refine le_trans (le_maxOf ?_) (le_maxOf (List.mem_map.mpr ⟨a, ha, rfl⟩))
    exact List.mem_map.mpr ⟨_, List.mem_map.mpr ⟨b, hb', rfl⟩, rfl⟩
  have h4 : ((ovI a b).2 : ℝ) ≤ (ovI a b).1 + ovErr (ovMat bs) := by
    have : (ovI a b).2 ≤ (ovI a b).1 + ovErr (ovMat bs) := by omega
    exact_mod_cast this
  rw [abs_of_nonneg (by linarith)]
  linarith

theorem ov_mat {bs : List BFn} (hb : ∀ b ∈ bs, b.good) :
    MatErr (ovErr (ovMat bs)) slOverlap bs (ovSN (ovMat bs)) := by
  unfold MatErr ovSN
  rw [List.forall₂_map_right_iff]
  change List.Forall₂ _ bs (bs.map fun a => bs.map (ovI a))
  refine forall₂_self_map fun a ha => ?_
  rw [List.forall₂_map_right_iff]
  refine forall₂_self_map fun b hb' => ?_
  simpa [snVal] using ov_err hb a ha b hb'

theorem kinMat_eq (l e : ℕ) (bs : List BFn) :
    kinMat l e bs (ovMat bs) = bs.map fun a => bs.map fun b => kinI l a b (ovI a b).1 e := by
  unfold kinMat ovMat
  rw [List.zipWith_map_right, List.zipWith_self]
  simp only [List.zipWith_map_right, List.zipWith_self]

theorem kin_mat (l : ℕ) {bs : List BFn} (hb : ∀ b ∈ bs, b.good) :
    MatErr (kinErr (kinMat l (ovErr (ovMat bs)) bs (ovMat bs))) (slKin l) bs
      ((kinMat l (ovErr (ovMat bs)) bs (ovMat bs)).map fun r => r.map Prod.fst) := by
  rw [kinMat_eq]
  unfold MatErr
  rw [List.forall₂_map_right_iff]
  refine forall₂_self_map fun a ha => ?_
  rw [List.forall₂_map_right_iff]
  refine forall₂_self_map fun b hb' => ?_
  refine (kinI_sound l (hb a ha) (hb b hb') (ov_err hb a ha b hb')).trans ?_
  have : (kinI l a b (ovI a b).1 (ovErr (ovMat bs))).2 ≤
      kinErr (bs.map fun a => bs.map fun b => kinI l a b (ovI a b).1 (ovErr (ovMat bs))) := by
    unfold kinErr
    rw [List.map_map]
    refine le_trans (le_maxOf ?_) (le_maxOf (List.mem_map.mpr ⟨a, ha, rfl⟩))
    exact List.mem_map.mpr ⟨_, List.mem_map.mpr ⟨b, hb', rfl⟩, rfl⟩
  exact_mod_cast this

theorem err_le {e a : ℕ} {x y : List SN} (hx : absSum x ≤ a) (hy : absSum y ≤ a) :
    (e : ℝ) * (absSum x * absSum y) ≤ (Nat.mul e (Nat.mul a a) : ℕ) := by
  have : e * (absSum x * absSum y) ≤ e * (a * a) := Nat.mul_le_mul_left _ (Nat.mul_le_mul hx hy)
  exact_mod_cast this

theorem orthoRow_sound {e a : ℕ} {m : List (List SN)} {bs : List BFn} (hm : MatErr e slOverlap bs m)
    {x : List SN} (hx : absSum x ≤ a) (ys : List (List SN)) (hy : ∀ y ∈ ys, absSum y ≤ a)
    (h : orthoRow (Nat.mul e (Nat.mul a a)) (m.map fun r => dot r x) ys = true) :
    ∀ y ∈ ys, |ovOf (bs.map BFn.fn) (y.map cf) (x.map cf)| ≤ 1e-6 := by
  induction ys with
  | nil => simp
  | cons y ys ih =>
    rw [orthoRow, Bool.and_eq_true, Nat.ble_eq] at h
    intro y' hy'
    rcases List.mem_cons.mp hy' with rfl | hy'
    · have s := (form_err hm y' x).trans (err_le (hy y' (by simp)) hx)
      have h1 : ((dot y' (m.map fun r => dot r x)).2 : ℝ) + (Nat.mul e (Nat.mul a a) : ℕ) ≤ 10 ^ 30 := by
        exact_mod_cast h.1
      rw [← snVal_abs] at h1
      unfold ovOf
      generalize bilin slOverlap _ _ _ _ = t at s ⊢
      generalize snVal _ = w at s h1
      generalize ((Nat.mul e (Nat.mul a a) : ℕ) : ℝ) = z at s h1
      have h2 : |(10 : ℝ) ^ 36 * t| ≤ 10 ^ 30 := by
        calc |(10 : ℝ) ^ 36 * t| = |(10 ^ 36 * t - w) + w| := by ring_nf
          _ ≤ |10 ^ 36 * t - w| + |w| := abs_add_le _ _
          _ ≤ z + |w| := by linarith
          _ ≤ _ := by linarith
      rw [abs_mul, abs_of_pos (by positivity)] at h2
      norm_num at h2 ⊢
      linarith
    · exact ih (fun y hy' => hy y (by simp [hy'])) h.2 y' hy'

theorem orthoI_sound {e a : ℕ} {m : List (List SN)} {bs : List BFn} (hm : MatErr e slOverlap bs m)
    (xs : List (List SN)) (hx : ∀ x ∈ xs, absSum x ≤ a)
    (h : orthoI (Nat.mul e (Nat.mul a a)) m xs = true) :
    (∀ x ∈ xs, |ovOf (bs.map BFn.fn) (x.map cf) (x.map cf) - 1| ≤ 1e-5) ∧
    xs.Pairwise fun x y => |ovOf (bs.map BFn.fn) (y.map cf) (x.map cf)| ≤ 1e-6 := by
  induction xs with
  | nil => simp
  | cons x xs ih =>
    rw [orthoI] at h
    simp only [Bool.and_eq_true] at h
    obtain ⟨⟨h1, h2⟩, h3⟩ := h
    obtain ⟨i1, i2⟩ := ih (fun y hy => hx y (by simp [hy])) h3
    refine ⟨?_, List.Pairwise.cons (orthoRow_sound hm (hx x (by simp)) xs (fun y hy => hx y (by simp [hy])) h2) i2⟩
    intro x' hx'
    rcases List.mem_cons.mp hx' with rfl | hx'
    · have s := (form_err hm x' x').trans (err_le (hx x' (by simp)) (hx x' (by simp)))
      generalize dot x' (m.map fun r => dot r x') = p at s h1
      obtain ⟨sg, v⟩ := p
      cases sg with
      | true => exact absurd h1 (by simp)
      | false =>
        simp only [Bool.and_eq_true, Nat.ble_eq] at h1
        have g1 : (v : ℝ) + (Nat.mul e (Nat.mul a a) : ℕ) ≤ 10 ^ 36 + 10 ^ 31 := by exact_mod_cast h1.1
        have g2 : (10 : ℝ) ^ 36 + (Nat.mul e (Nat.mul a a) : ℕ) ≤ v + 10 ^ 31 := by exact_mod_cast h1.2
        have s' := abs_le.mp s
        simp only [snVal, Bool.false_eq_true, if_false] at s'
        rw [abs_le]
        unfold ovOf
        constructor <;> norm_num at * <;> linarith
    · exact i1 x' hx'

theorem kinSum_sound {e a : ℕ} {v : ℝ × ℕ → ℝ × ℕ → ℝ} {m : List (List SN)} {bs : List BFn} (hm : MatErr e v bs m)
    (xs : List (List SN)) (hx : ∀ x ∈ xs, absSum x ≤ a) (ns : List ℕ) {lo hi : ℕ}
    (h : kinSum (Nat.mul e (Nat.mul a a)) m xs ns = some (lo, hi)) :
    (lo : ℝ) ≤ 10 ^ 36 * (List.zipWith (fun (x : List SN) (n : ℕ) =>
      (n : ℝ) * bilin v (bs.map BFn.fn) (x.map cf) (bs.map BFn.fn) (x.map cf)) xs ns).sum ∧
    10 ^ 36 * (List.zipWith (fun (x : List SN) (n : ℕ) =>
      (n : ℝ) * bilin v (bs.map BFn.fn) (x.map cf) (bs.map BFn.fn) (x.map cf)) xs ns).sum ≤ hi := by
  induction xs generalizing ns lo hi with
  | nil =>
    simp only [kinSum, Option.some.injEq, Prod.mk.injEq] at h
    obtain ⟨rfl, rfl⟩ := h
    simp
  | cons x xs ih =>
    cases ns with
    | nil =>
      simp only [kinSum, Option.some.injEq, Prod.mk.injEq] at h
      obtain ⟨rfl, rfl⟩ := h
      simp
    | cons n ns =>
      rw [kinSum] at h
      have s := (form_err hm x x).trans (err_le (hx x (by simp)) (hx x (by simp)))
      generalize dot x (m.map fun r => dot r x) = p at s h
      obtain ⟨sg, v⟩ := p
      cases sg with
      | true => exact absurd h (by simp)
      | false =>
        simp only at h
        split at h
        · next hle =>
          have hle' : Nat.mul e (Nat.mul a a) ≤ v := Nat.le_of_ble_eq_true hle
          cases hk : kinSum (Nat.mul e (Nat.mul a a)) m xs ns with
          | none => rw [hk] at h; exact absurd h (by simp)
          | some q =>
            obtain ⟨lo', hi'⟩ := q
            rw [hk] at h
            simp only [Option.some.injEq, Prod.mk.injEq] at h
            obtain ⟨rfl, rfl⟩ := h
            obtain ⟨i1, i2⟩ := ih (fun y hy => hx y (by simp [hy])) ns hk
            have s' := abs_le.mp s
            simp only [snVal, Bool.false_eq_true, if_false] at s'
            simp only [List.zipWith_cons_cons, List.sum_cons, Nat.add_eq, Nat.mul_eq, Nat.sub_eq] at *
            have hn : (0 : ℝ) ≤ n := Nat.cast_nonneg _
            have q1 := mul_le_mul_of_nonneg_left s'.1 hn
            have q2 := mul_le_mul_of_nonneg_left s'.2 hn
            push_cast [Nat.cast_sub hle'] at *
            constructor <;> nlinarith
        · exact absurd h (by simp)

/-! ### Tables -/

theorem mapOpt_mem {α β : Type} {f : α → Option β} {l : List α} {l' : List β} (h : mapOpt f l = some l') :
    ∀ b ∈ l', ∃ a ∈ l, f a = some b := by
  have := mapOpt_some h
  intro b hb
  have hm : some b ∈ l.map f := by
    rw [this]
    exact List.mem_map.mpr ⟨b, hb, rfl⟩
  exact List.mem_map.mp hm

theorem mapOpt_map {α β γ : Type} {f : α → Option β} {l : List α} {l' : List β} (h : mapOpt f l = some l')
    (g : β → γ) (g' : α → γ) (hg : ∀ a ∈ l, ∀ b, f a = some b → g b = g' a) : l'.map g = l.map g' := by
  have := mapOpt_some h
  clear h
  induction l generalizing l' with
  | nil =>
    cases l' with
    | nil => rfl
    | cons b l' => simp at this
  | cons a l ih =>
    cases l' with
    | nil => simp at this
    | cons b l' =>
      rw [List.map_cons, List.map_cons, List.cons.injEq] at this
      rw [List.map_cons, List.map_cons, ih (fun a' ha' => hg a' (by simp [ha'])) this.2,
        hg a (by simp) b this.1]

/-- Exponents and numbers of a table. -/
def DBlock.basis (b : DBlock) : List (ℝ × ℕ) := b.rows.map fun r => (r.z.val, r.n)

/-- Coefficients of orbital `i` of a table. -/
def DBlock.col (b : DBlock) (i : ℕ) : List ℝ := b.rows.map fun r => reOf (r.toT.cs.getD i 0)

theorem colI_sound {b : DBlock} {i : ℕ} {x : List SN} (h : colI b.rows i = some x) : x.map cf = b.col i := by
  unfold colI at h
  refine mapOpt_map h _ _ fun r _ k hk => ?_
  cases hc : r.cs[i]? with
  | none => rw [hc] at hk; exact absurd hk (by simp)
  | some d =>
    rw [hc] at hk
    simp only at hk
    have hf := fix_val hk
    have : r.toT.cs.getD i 0 = d.fl := by
      simp only [DRow.toT, List.getD_eq_getElem?_getD, List.getElem?_map, hc, Option.map_some, Option.getD_some]
    rw [this]
    unfold cf
    rw [hf]
    simp [Dec.fl, reOf]

/-- `k x` lies in the interval `v`. -/
def Enc (k x : ℝ) (v : ℕ × ℕ) : Prop := (v.1 : ℝ) ≤ k * x ∧ k * x ≤ v.2

theorem blockI_sound {items : List CfgItem} {b : DBlock} {u : ℕ × ℕ} (h : blockI items b = some u) :
    (∀ i < b.count, |ovOf b.basis (b.col i) (b.col i) - 1| ≤ 1e-5) ∧
    (∀ i j, i < j → j < b.count → |ovOf b.basis (b.col j) (b.col i)| ≤ 1e-6) ∧
    Enc (10 ^ 36) ((List.range b.count).map fun i => (occC items ⟨b.sub.l + 1 + i, b.sub⟩ : ℝ) *
      bilin (slKin b.sub.l) b.basis (b.col i) b.basis (b.col i)).sum u := by
  unfold blockI at h
  cases hf : mapOpt mkFn b.rows with
  | none => rw [hf] at h; exact absurd h (by simp)
  | some fs =>
    rw [hf] at h
    simp only at h
    cases hc : mapOpt (colI b.rows) (List.range b.count) with
    | none => rw [hc] at h; exact absurd h (by simp)
    | some cols =>
      rw [hc] at h
      simp only at h
      split at h
      · next ho =>
        have hg : ∀ a ∈ fs, a.good := by
          intro a ha
          obtain ⟨r, -, hr⟩ := mapOpt_mem hf a ha
          exact (mkFn_sound hr).1
        have hB : fs.map BFn.fn = b.basis := mapOpt_map hf _ _ fun r _ a ha => (mkFn_sound ha).2
        have hC : cols.map (fun x => x.map cf) = (List.range b.count).map b.col :=
          mapOpt_map hc _ _ fun i _ x hx => colI_sound hx
        have hmax : ∀ x ∈ cols, absSum x ≤ maxOf (cols.map absSum) := fun x hx =>
          le_maxOf (List.mem_map.mpr ⟨x, hx, rfl⟩)
        have hlen : cols.length = b.count := by
          have := congrArg List.length hC
          simpa using this
        have hCi : ∀ (i : ℕ) (hi : i < cols.length), (cols[i]).map cf = b.col i := by
          intro i hi
          have e : (cols.map (fun x => x.map cf))[i]? = ((List.range b.count).map b.col)[i]? := by rw [hC]
          rw [List.getElem?_map, List.getElem?_map, List.getElem?_eq_getElem hi,
            List.getElem?_range (hlen ▸ hi)] at e
          simpa using e
        obtain ⟨o1, o2⟩ := orthoI_sound (ov_mat hg) cols hmax ho
        rw [hB] at o1 o2
        refine ⟨?_, ?_, ?_⟩
        · intro i hi
          have hi' : i < cols.length := hlen ▸ hi
          have := o1 cols[i] (List.getElem_mem hi')
          rwa [hCi i hi'] at this
        · intro i j hij hj
          have hj' : j < cols.length := hlen ▸ hj
          have := List.pairwise_iff_getElem.mp o2 i j (lt_trans hij hj') hj' hij
          rwa [hCi, hCi] at this
        · have s := kinSum_sound (kin_mat b.sub.l hg) cols hmax
            ((List.range b.count).map fun i => occC items ⟨b.sub.l + 1 + i, b.sub⟩) (lo := u.1) (hi := u.2) h
          rw [hB] at s
          unfold Enc
          convert s using 3 <;>
          · rw [show List.zipWith (fun (x : List SN) (n : ℕ) =>
                (n : ℝ) * bilin (slKin b.sub.l) b.basis (x.map cf) b.basis (x.map cf)) cols
                ((List.range b.count).map fun i => occC items ⟨b.sub.l + 1 + i, b.sub⟩) =
              List.zipWith (fun (x : List ℝ) (n : ℕ) => (n : ℝ) * bilin (slKin b.sub.l) b.basis x b.basis x)
                (cols.map fun x => x.map cf)
                ((List.range b.count).map fun i => occC items ⟨b.sub.l + 1 + i, b.sub⟩) by
              rw [List.zipWith_map_left], hC, List.zipWith_map, List.zipWith_self]
      · exact absurd h (by simp)

/-- The orbitals of a table. -/
def DBlock.orbs (b : DBlock) : List Orb := (List.range b.count).map fun i => ⟨b.sub.l + 1 + i, b.sub⟩

theorem blocksI_sound {items : List CfgItem} {bs : List DBlock} {u : ℕ × ℕ} (h : blocksI items bs = some u)
    (g : Orb → ℝ) (hg : ∀ b ∈ bs, ∀ i < b.count, g ⟨b.sub.l + 1 + i, b.sub⟩ =
      (occC items ⟨b.sub.l + 1 + i, b.sub⟩ : ℝ) *
        bilin (slKin b.sub.l) b.basis (b.col i) b.basis (b.col i)) :
    (∀ b ∈ bs, (∀ i < b.count, |ovOf b.basis (b.col i) (b.col i) - 1| ≤ 1e-5) ∧
      (∀ i j, i < j → j < b.count → |ovOf b.basis (b.col j) (b.col i)| ≤ 1e-6)) ∧
    Enc (10 ^ 36) ((bs.flatMap DBlock.orbs).map g).sum u := by
  induction bs generalizing u with
  | nil =>
    simp only [blocksI, Option.some.injEq] at h
    subst h
    exact ⟨by simp, by simp [Enc]⟩
  | cons b bs ih =>
    rw [blocksI] at h
    cases hb : blockI items b with
    | none => rw [hb] at h; exact absurd h (by simp)
    | some u1 =>
      rw [hb] at h
      simp only at h
      cases hbs : blocksI items bs with
      | none => rw [hbs] at h; exact absurd h (by simp)
      | some u2 =>
        rw [hbs] at h
        simp only [Option.some.injEq] at h
        subst h
        obtain ⟨a1, a2, a3⟩ := blockI_sound hb
        obtain ⟨i1, i2⟩ := ih hbs (fun b' hb' => hg b' (by simp [hb']))
        refine ⟨?_, ?_⟩
        · intro b' hb'
          rcases List.mem_cons.mp hb' with rfl | hb'
          · exact ⟨a1, a2⟩
          · exact i1 b' hb'
        · rw [List.flatMap_cons, List.map_append, List.sum_append]
          have e : (b.orbs.map g) = (List.range b.count).map fun i => (occC items ⟨b.sub.l + 1 + i, b.sub⟩ : ℝ) *
              bilin (slKin b.sub.l) b.basis (b.col i) b.basis (b.col i) := by
            unfold DBlock.orbs
            rw [List.map_map]
            apply List.map_congr_left
            intro i hi
            exact hg b (by simp) i (List.mem_range.mp hi)
          rw [← e] at a3
          unfold Enc at *
          simp only [Nat.add_eq]
          push_cast
          constructor <;> linarith [a3.1, a3.2, i2.1, i2.2]

/-! ### Files -/

theorem occC_eq {items : List CfgItem} (h : WfConfig items) (o : Orb) : occC items o = occSpec items o := by
  unfold occC
  split
  · next k hk =>
    obtain ⟨it, hit, e⟩ := List.exists_of_findSome?_eq_some hk
    cases it with
    | shell n c => simp at e
    | orb o' k' =>
      simp only [Option.ite_none_right_eq_some, Option.some.injEq] at e
      obtain ⟨rfl, rfl⟩ := e
      exact (occSpec_listed h hit).symm
  · next hn =>
    rw [List.findSome?_eq_none_iff] at hn
    have hk : ∀ k, CfgItem.orb o k ∉ items := by
      intro k hk
      have := hn _ hk
      simp at this
    obtain ⟨g1, g2⟩ := occSpec_unlisted hk
    split
    · next ha =>
      obtain ⟨it, hit, e⟩ := List.any_eq_true.mp ha
      cases it with
      | orb o' k' => simp at e
      | shell n c =>
        simp only [beq_iff_eq] at e
        subst e
        exact (g1 ⟨c, hit⟩).symm
    · next ha =>
      refine (g2 fun c hc => ha ?_).symm
      exact List.any_eq_true.mpr ⟨_, hc, by simp⟩

theorem cfgOk_sound {items : List CfgItem} (h : cfgOk items = true) : WfConfig items := by
  unfold cfgOk at h
  rw [Bool.and_eq_true] at h
  refine ⟨fun it hit => ?_, by simpa using h.2⟩
  have := List.all_eq_true.mp h.1 it hit
  cases it with
  | shell n c => simpa [CfgItem.wf] using this
  | orb o k =>
    simp only [Bool.and_eq_true, Bool.or_eq_true, decide_eq_true_eq] at this
    refine ⟨this.1, fun hs => ?_⟩
    rcases this.2 with h2 | h2
    · rcases hs with hs | hs
      · exact absurd hs h2.1
      · exact absurd hs h2.2
    · exact h2

/-- What the checks of a file say. -/
structure DFile.Good (N : ℕ) (f : DFile) : Prop where
  wf : f.toS.wf
  all : ∀ o : Orb, o.valid → occSpec f.toS.config o ≠ 0 → o ∈ f.toS.orbs
  electrons : (f.toS.orbs.map (occSpec f.toS.config)).sum = N
  norm : ∀ o ∈ f.toS.orbs, |normSq (f.toS.basisOf o.sub) (f.toS.coeffOf o) - 1| ≤ 1e-5
  orth : ∀ o ∈ f.toS.orbs, ∀ o' ∈ f.toS.orbs, o.sub = o'.sub → o'.n < o.n →
    |bilin slOverlap (f.toS.basisOf o.sub) (f.toS.coeffOf o) (f.toS.basisOf o'.sub) (f.toS.coeffOf o')| ≤ 1e-6
  kinetic : |(f.toS.orbs.map fun o => (occSpec f.toS.config o : ℝ) *
    bilin (slKin o.sub.l) (f.toS.basisOf o.sub) (f.toS.coeffOf o) (f.toS.basisOf o.sub)
      (f.toS.coeffOf o)).sum / 2 - f.kinetic.val| ≤ 3e-7 * f.kinetic.val
  energy : |f.energy.val - (f.kinetic.val + f.potential.val)| ≤ 2e-9
  virial : |f.potential.val + 2 * f.kinetic.val| ≤ 2e-8 * f.kinetic.val

theorem fileOk_sound {N : ℕ} {f : DFile} (h : fileOk N f = true) (hgood : ∀ b ∈ f.blocks, b.good) :
    f.Good N := by
  unfold fileOk at h
  simp only at h
  split at h
  · simp at h
  · next lo hi hbl =>
    simp only [Bool.and_eq_true, Bool.not_eq_true', decide_eq_true_eq, List.all_eq_true, beq_iff_eq,
      bne_iff_ne, Bool.or_eq_true, List.isEmpty_eq_false_iff, Nat.ble_eq] at h
    obtain ⟨⟨⟨⟨⟨⟨hcfg, hne⟩, hnd⟩, hocc⟩, hall⟩, hsum⟩,
      ⟨⟨⟨⟨⟨⟨⟨⟨⟨⟨⟨k1, k2⟩, k3⟩, k4⟩, k5⟩, k6⟩, k7⟩, k8⟩, k9⟩, k10⟩, k11⟩, k12⟩⟩ := h
    have hW : WfConfig f.toS.config := cfgOk_sound hcfg
    have hW' : ∀ o, occC (f.core.items ++ f.items) o = occSpec f.toS.config o := occC_eq hW
    have hnd' : (f.toS.blocks.map TBlock.sub).Nodup := by
      simp only [DFile.toS, List.map_map]
      exact hnd
    have horbs : f.toS.orbs = f.orbs := by
      unfold SFile.orbs DFile.orbs
      simp only [DFile.toS, List.flatMap_map]
      rfl
    have horbs' : f.toS.orbs = f.blocks.flatMap DBlock.orbs := horbs
    have hmem : ∀ o ∈ f.toS.orbs, ∃ b ∈ f.blocks, ∃ i < b.count, o = ⟨b.sub.l + 1 + i, b.sub⟩ := by
      intro o ho
      rw [horbs'] at ho
      obtain ⟨b, hb, hob⟩ := List.mem_flatMap.mp ho
      obtain ⟨i, hi, rfl⟩ := List.mem_map.mp hob
      exact ⟨b, hb, i, List.mem_range.mp hi, rfl⟩
    have hbas : ∀ b ∈ f.blocks, f.toS.basisOf b.sub = b.basis := by
      intro b hb
      have := flatMap_unique f.toS.blocks hnd'
        (fun b : TBlock => b.rows.map fun r : TRow => (reOf r.z, r.n)) b.toT (List.mem_map.mpr ⟨b, hb, rfl⟩)
      refine this.trans ?_
      simp only [DBlock.toT, DBlock.basis, List.map_map]
      rfl
    have hcol : ∀ b ∈ f.blocks, ∀ i, f.toS.coeffOf ⟨b.sub.l + 1 + i, b.sub⟩ = b.col i := by
      intro b hb i
      have := flatMap_unique f.toS.blocks hnd'
        (fun b' => b'.rows.map fun r => reOf (r.cs.getD (b.sub.l + 1 + i - b.sub.l - 1) 0)) b.toT
          (List.mem_map.mpr ⟨b, hb, rfl⟩)
      refine this.trans ?_
      rw [show b.sub.l + 1 + i - b.sub.l - 1 = i by omega]
      simp only [DBlock.toT, DBlock.col, List.map_map]
      rfl
    obtain ⟨c1, c2⟩ := blocksI_sound hbl (fun o => (occSpec f.toS.config o : ℝ) *
      bilin (slKin o.sub.l) (f.toS.basisOf o.sub) (f.toS.coeffOf o) (f.toS.basisOf o.sub)
      (f.toS.coeffOf o)) (by
        intro b hb i hi
        simp only
        rw [hbas b hb, hcol b hb, hW'])
    rw [← horbs'] at c2
    refine ⟨⟨hW, ?_, hnd', ?_, ?_⟩, ?_, ?_, ?_, ?_, ?_, ?_, ?_⟩
    · simpa [DFile.toS] using hne
    · intro b hb
      obtain ⟨b', hb', rfl⟩ := List.mem_map.mp hb
      simpa [DBlock.toT] using (hgood b' hb').rows
    · intro o ho
      rw [← hW']
      exact hocc o (horbs ▸ ho)
    · intro o ho h0
      rcases hall o ((mem_allOrbs o).mpr ho) with h1 | h1
      · exact absurd ((hW' o).symm.trans h1) h0
      · rw [horbs]
        simpa using h1
    · rw [horbs, ← hsum]
      congr 1
      apply List.map_congr_left
      intro o _
      exact (hW' o).symm
    · intro o ho
      obtain ⟨b, hb, i, hi, rfl⟩ := hmem o ho
      rw [hbas b hb, hcol b hb]
      exact (c1 b hb).1 i hi
    · intro o ho o' ho' hs hlt
      obtain ⟨b, hb, i, hi, rfl⟩ := hmem o ho
      obtain ⟨b', hb', j, hj, rfl⟩ := hmem o' ho'
      have hbb : b = b' := List.inj_on_of_nodup_map hnd hb hb' hs
      subst hbb
      simp only at hlt
      rw [hbas b hb, hcol b hb, hcol b hb]
      exact (c1 b hb).2 j i (by omega) hi
    · obtain ⟨e1, e2⟩ := c2
      simp only at e1 e2
      have hT : f.kinetic.val = f.kinetic.mant / 10 ^ 9 := by
        unfold Dec.val
        rw [k1, k2]
        simp
      generalize (f.toS.orbs.map fun o => (occSpec f.toS.config o : ℝ) *
        bilin (slKin o.sub.l) (f.toS.basisOf o.sub) (f.toS.coeffOf o) (f.toS.basisOf o.sub)
        (f.toS.coeffOf o)).sum = K at e1 e2 ⊢
      have g1 : 2 * (f.kinetic.mant : ℝ) * (10 ^ 7 - 3) * 10 ^ 36 ≤ lo * 10 ^ 16 := by
        have k7' : 2 * f.kinetic.mant * 9999997 * 10 ^ 36 ≤ lo * 10 ^ 16 := k7
        have : 2 * (f.kinetic.mant : ℝ) * 9999997 * 10 ^ 36 ≤ lo * 10 ^ 16 := by exact_mod_cast k7'
        norm_num at this ⊢
        exact this
      have g2 : (hi : ℝ) * 10 ^ 16 ≤ 2 * (f.kinetic.mant : ℝ) * (10 ^ 7 + 3) * 10 ^ 36 := by exact_mod_cast k8
      rw [hT, abs_le]
      constructor <;> norm_num at * <;> linarith
    · have hT : f.kinetic.val = f.kinetic.mant / 10 ^ 9 := by
        unfold Dec.val
        rw [k1, k2]
        simp
      have hV : f.potential.val = -(f.potential.mant / 10 ^ 9) := by
        unfold Dec.val
        rw [k3, k4]
        simp [neg_div]
      have hE : f.energy.val = -(f.energy.mant / 10 ^ 9) := by
        unfold Dec.val
        rw [k5, k6]
        simp [neg_div]
      have g1 : (f.potential.mant : ℝ) ≤ f.energy.mant + f.kinetic.mant + 2 := by exact_mod_cast k9
      have g2 : (f.energy.mant : ℝ) + f.kinetic.mant ≤ f.potential.mant + 2 := by exact_mod_cast k10
      rw [hT, hV, hE, abs_le]
      constructor <;> norm_num at * <;> linarith
    · have hT : f.kinetic.val = f.kinetic.mant / 10 ^ 9 := by
        unfold Dec.val
        rw [k1, k2]
        simp
      have hV : f.potential.val = -(f.potential.mant / 10 ^ 9) := by
        unfold Dec.val
        rw [k3, k4]
        simp [neg_div]
      have g1 : 2 * (f.kinetic.mant : ℝ) * 99999999 ≤ f.potential.mant * 10 ^ 8 := by exact_mod_cast k11
      have g2 : (f.potential.mant : ℝ) * 10 ^ 8 ≤ 2 * f.kinetic.mant * (10 ^ 8 + 1) := by exact_mod_cast k12
      rw [hT, hV, abs_le]
      constructor <;> norm_num at * <;> linarith

theorem snLe_iff (x y : SN) : snVal x ≤ snVal y ↔ snLe x y = true := by
  obtain ⟨s, a⟩ := x
  obtain ⟨t, b⟩ := y
  have ha : (0 : ℝ) ≤ a := Nat.cast_nonneg _
  have hb : (0 : ℝ) ≤ b := Nat.cast_nonneg _
  cases s <;> cases t <;> simp only [snVal, snLe, if_true, Bool.false_eq_true, if_false, Bool.and_eq_true, Nat.ble_eq]
  · exact Nat.cast_le
  · constructor
    · intro h
      have h1 : (a : ℝ) = 0 := by linarith
      have h2 : (b : ℝ) = 0 := by linarith
      exact ⟨(Nat.cast_eq_zero.mp h1).le, (Nat.cast_eq_zero.mp h2).le⟩
    · rintro ⟨h1, h2⟩
      rw [Nat.le_zero.mp h1, Nat.le_zero.mp h2]
      simp
  · simp only [iff_true]
    linarith
  · rw [neg_le_neg_iff]
    exact Nat.cast_le

theorem lastMax_sound {f : DFile} {t : Bool} (h : lastMax f = some t) :
    ∃ es : List ℝ, ∃ e, f.toS.blocks.flatMap TBlock.energies = fins es ∧ es.getLast? = some e ∧
      ((∀ x ∈ es, x ≤ e) ↔ t = true) := by
  unfold lastMax at h
  cases hm : mapOpt Dec.fix (f.blocks.flatMap DBlock.energies) with
  | none => rw [hm] at h; exact absurd h (by simp)
  | some ks =>
    rw [hm] at h
    simp only at h
    cases hl : ks.getLast? with
    | none => rw [hl] at h; exact absurd h (by simp)
    | some k =>
      rw [hl] at h
      simp only [Option.some.injEq] at h
      have hmap : ks.map cf = (f.blocks.flatMap DBlock.energies).map Dec.val :=
        mapOpt_map hm _ _ fun d _ k hk => by
          unfold cf
          rw [fix_val hk]
          simp
      refine ⟨ks.map cf, cf k, ?_, ?_, ?_⟩
      · rw [hmap, ← map_fl]
        simp only [DFile.toS, List.flatMap_map, List.map_flatMap]
        rfl
      · rw [List.getLast?_map, hl]
        rfl
      · rw [← h, List.all_eq_true, List.forall_mem_map]
        refine forall₂_congr fun x _ => ?_
        unfold cf
        rw [div_le_div_iff_of_pos_right (by positivity), snLe_iff]

end
end BFit
