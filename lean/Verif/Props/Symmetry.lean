import Mathlib.LinearAlgebra.UnitaryGroup
import Verif.Props.Molecular

/-!
Symmetries of the Gaussian models: rigid motions, order of the atoms and of the basis functions, and
the unit of length.
-/

namespace BFit

open Real

noncomputable section

/-! ### Rigid motions -/

/-- The point `Q x + t`. -/
def moved {n : ℕ} (Q : Matrix (Fin n) (Fin n) ℝ) (t : Fin n → ℝ) (x : List ℝ) : List ℝ :=
  List.ofFn fun i => ∑ j, Q i j * x.getD j 0 + t i

theorem moved_length {n : ℕ} (Q : Matrix (Fin n) (Fin n) ℝ) (t : Fin n → ℝ) (x : List ℝ) :
    (moved Q t x).length = n := by simp [moved]

theorem zipWith_sum_eq {n : ℕ} (x y : List ℝ) (hx : x.length = n) (hy : y.length = n) :
    (List.zipWith (fun u v => (u - v) ^ 2) x y).sum = ∑ i : Fin n, (x.getD i 0 - y.getD i 0) ^ 2 := by
  induction n generalizing x y with
  | zero =>
    obtain rfl := List.length_eq_zero_iff.mp hx
    simp
  | succ n ih =>
    obtain ⟨a, x, rfl⟩ := List.exists_cons_of_length_eq_add_one hx
    obtain ⟨b, y, rfl⟩ := List.exists_cons_of_length_eq_add_one hy
    rw [List.zipWith_cons_cons, List.sum_cons, ih x y (by simpa using hx) (by simpa using hy),
      Fin.sum_univ_succ]
    simp

theorem distL_moved {n : ℕ} (Q : Matrix (Fin n) (Fin n) ℝ) (hQ : Q.transpose * Q = 1) (t : Fin n → ℝ)
    (x y : List ℝ) (hx : x.length = n) (hy : y.length = n) :
    distL (moved Q t x) (moved Q t y) = distL x y := by
  unfold distL
  rw [zipWith_sum_eq _ _ (moved_length Q t x) (moved_length Q t y), zipWith_sum_eq x y hx hy]
  congr 1
  have hm : ∀ z i, (moved Q t z).getD (i : Fin n) 0 = ∑ j, Q i j * z.getD j 0 + t i := by
    intro z i
    rw [List.getD_eq_getElem _ _ (by rw [moved_length]; exact i.2)]
    simp [moved]
  set d : Fin n → ℝ := fun j => x.getD j 0 - y.getD j 0 with hd
  have h1 : ∀ i : Fin n, (moved Q t x).getD i 0 - (moved Q t y).getD i 0 = (Q.mulVec d) i := by
    intro i
    rw [hm, hm, add_sub_add_right_eq_sub, ← Finset.sum_sub_distrib]
    exact Finset.sum_congr rfl fun j _ => by rw [hd]; ring
  have h2 : (Q.mulVec d) ⬝ᵥ (Q.mulVec d) = d ⬝ᵥ d := by
    rw [Matrix.dotProduct_mulVec, Matrix.vecMul_mulVec, hQ, Matrix.vecMul_one]
  have h3 : ∀ u : Fin n → ℝ, u ⬝ᵥ u = ∑ i, u i ^ 2 := fun u =>
    Finset.sum_congr rfl fun i _ => by ring
  rw [h3, h3] at h2
  simp only [h1]
  exact h2

/-- **C85** (rigid motions).  Moving all points and all centres by the same rotation or reflection `Q`
and translation `t` changes neither the values nor the derivatives of the molecular model. -/
theorem C85_rigid {n : ℕ} (Q : Matrix (Fin n) (Fin n) ℝ) (hQ : Q.transpose * Q = 1) (t : Fin n → ℝ)
    (xs : List (List ℝ)) (hxs : ∀ x ∈ xs, x.length = n) (norm : Bool) (coords : List (List ℝ))
    (ats : List (ℕ × ℕ)) (hlen : coords.length = ats.length) (hcols : ∀ q ∈ coords, q.length = n)
    (hats : ∀ b ∈ ats, b.1 + b.2 ≠ 0) (C E : List ℝ)
    (hC : C.length = molOffset ats ats.length) (hE : E.length = molOffset ats ats.length)
    (hpos : norm = true → ∀ a ∈ E, 0 ≤ a) (deriv : Bool) :
    ∃ m m' out, Molecular.init (.two n (xs.map fins)) n (coords.map fins)
        (ats.map fun b => ((b.1 : ℤ), (b.2 : ℤ))) norm = .ok m ∧
      Molecular.init (.two n ((xs.map (moved Q t)).map fins)) n ((coords.map (moved Q t)).map fins)
        (ats.map fun b => ((b.1 : ℤ), (b.2 : ℤ))) norm = .ok m' ∧
      m.evaluate (ND.vec (fins C)) (ND.vec (fins E)) deriv = .ok out ∧
      m'.evaluate (ND.vec (fins C)) (ND.vec (fins E)) deriv = .ok out := by
  obtain ⟨m, h1, h2⟩ := mol_init n xs norm coords ats hlen hcols hats
  obtain ⟨m', h1', h2'⟩ := mol_init n (xs.map (moved Q t)) norm (coords.map (moved Q t)) ats
    (by simpa using hlen) (by
      intro q hq
      obtain ⟨p, -, rfl⟩ := List.mem_map.mp hq
      exact moved_length Q t p) hats
  have hn : molNb ats = molOffset ats ats.length := by simp [molNb, molOffset]
  have e1 := mol_evaluate_fins h2 C E (by rw [hC, hn]) (by rw [hE, hn]) hpos deriv
  have e2 := mol_evaluate_fins h2' C E (by rw [hC, hn]) (by rw [hE, hn]) hpos deriv
  have h3 : ∀ x ∈ xs, (fun a => centreDist (coords.map (moved Q t)) a (moved Q t x)) =
      fun a => centreDist coords a x := by
    intro x hx
    funext a
    unfold centreDist
    by_cases ha : a < coords.length
    · rw [List.getD_eq_getElem _ _ (by simpa using ha), List.getD_eq_getElem _ _ ha, List.getElem_map]
      exact distL_moved Q hQ t x _ (hxs x hx) (hcols _ (List.getElem_mem ha))
    · rw [List.getD_eq_default _ _ (by simpa using ha), List.getD_eq_default _ _ (by simpa using ha)]
      simp [distL]
  refine ⟨m, m', _, h1, h1', e1, e2.trans ?_⟩
  rw [List.map_map, List.map_map]
  congr 2
  · congr 1
    exact List.map_congr_left fun x hx => by simp only [Function.comp, h3 x hx]
  · congr 2
    exact List.map_congr_left fun x hx => by simp only [Function.comp, h3 x hx]

/-- A quarter turn about the z axis and a translation in space. -/
example (C E : List ℝ) (hC : C.length = 2) (hE : E.length = 2) (hpos : ∀ a ∈ E, 0 ≤ a) (a b c : ℝ) :
    ∃ m m' out, Molecular.init (.two 3 [fins [1, 2, 3]]) 3 [fins [0, 0, 0], fins [0, 0, 2]]
        [(1, 0), (0, 1)] true = .ok m ∧
      Molecular.init (.two 3 [fins [-2 + a, 1 + b, 3 + c]]) 3 [fins [a, b, c], fins [a, b, 2 + c]]
        [(1, 0), (0, 1)] true = .ok m' ∧
      m.evaluate (ND.vec (fins C)) (ND.vec (fins E)) true = .ok out ∧
      m'.evaluate (ND.vec (fins C)) (ND.vec (fins E)) true = .ok out := by
  obtain ⟨m, m', out, h1, h2, h3, h4⟩ := C85_rigid (n := 3) !![0, -1, 0; 1, 0, 0; 0, 0, 1]
    (by ext i j; fin_cases i <;> fin_cases j <;> simp [Matrix.mul_apply, Fin.sum_univ_three]) ![a, b, c]
    [[1, 2, 3]] (by simp) true [[0, 0, 0], [0, 0, 2]] [(1, 0), (0, 1)] rfl (by simp) (by simp) C E
    (by simp [molOffset, hC]) (by simp [molOffset, hE]) (fun _ => hpos) true
  refine ⟨m, m', out, h1, ?_, h3, h4⟩
  simpa [moved, List.ofFn_succ, Fin.sum_univ_three] using h2

/-! ### Order of the atoms -/

/-- An atom of a molecular model: position, numbers of s- and p-type functions, coefficients and
exponents. -/
structure AtomSpec where
  pos : List ℝ
  fns : ℕ × ℕ
  co : List ℝ
  ex : List ℝ

theorem molDensity_specs (norm : Bool) (L : List AtomSpec) (h : ∀ A ∈ L, A.co.length = A.fns.1 + A.fns.2 ∧
    A.ex.length = A.fns.1 + A.fns.2) (x : List ℝ) :
    molDensity norm (L.map AtomSpec.fns) (fun a => distL x ((L.map AtomSpec.pos).getD a []))
        (L.flatMap AtomSpec.co) (L.flatMap AtomSpec.ex) =
      (L.map fun A => atomDensity A.fns.1 A.fns.2 norm A.co A.ex (distL x A.pos)).sum := by
  induction L with
  | nil => simp [molDensity]
  | cons A L ih =>
    obtain ⟨h1, h2⟩ := h A (by simp)
    rw [List.map_cons, List.flatMap_cons, List.flatMap_cons, molDensity_cons, List.map_cons, List.map_cons,
      List.sum_cons, ← ih fun B hB => h B (by simp [hB]), ← h1, List.take_left' rfl, List.drop_left' rfl, h1,
      ← h2, List.take_left' rfl, List.drop_left' rfl]
    rfl

theorem specs_lengths (L : List AtomSpec) (h : ∀ A ∈ L, A.co.length = A.fns.1 + A.fns.2 ∧
    A.ex.length = A.fns.1 + A.fns.2) :
    (L.flatMap AtomSpec.co).length = molNb (L.map AtomSpec.fns) ∧
      (L.flatMap AtomSpec.ex).length = molNb (L.map AtomSpec.fns) := by
  induction L with
  | nil => simp [molNb]
  | cons A L ih =>
    obtain ⟨h1, h2⟩ := h A (by simp)
    obtain ⟨i1, i2⟩ := ih fun B hB => h B (by simp [hB])
    rw [List.map_cons, molNb_cons, List.flatMap_cons, List.flatMap_cons, List.length_append,
      List.length_append, i1, i2, h1, h2]
    exact ⟨rfl, rfl⟩

/-- **C85** (order of the atoms).  Listing the atoms in another order, together with their numbers of
functions and their blocks of parameters, gives the same values. -/
theorem C85_atom_order (L L' : List AtomSpec) (hp : L.Perm L') (cols : ℕ) (xs : List (List ℝ))
    (norm : Bool)
    (h : ∀ A ∈ L, A.pos.length = cols ∧ A.fns.1 + A.fns.2 ≠ 0 ∧ A.co.length = A.fns.1 + A.fns.2 ∧
      A.ex.length = A.fns.1 + A.fns.2 ∧ (norm = true → ∀ a ∈ A.ex, 0 ≤ a)) (deriv : Bool) :
    ∃ m m' vals d d',
      Molecular.init (.two cols (xs.map fins)) cols (L.map fun A => fins A.pos)
        (L.map fun A => ((A.fns.1 : ℤ), (A.fns.2 : ℤ))) norm = .ok m ∧
      Molecular.init (.two cols (xs.map fins)) cols (L'.map fun A => fins A.pos)
        (L'.map fun A => ((A.fns.1 : ℤ), (A.fns.2 : ℤ))) norm = .ok m' ∧
      m.evaluate (ND.vec (fins (L.flatMap AtomSpec.co))) (ND.vec (fins (L.flatMap AtomSpec.ex))) deriv =
        .ok (vals, d) ∧
      m'.evaluate (ND.vec (fins (L'.flatMap AtomSpec.co))) (ND.vec (fins (L'.flatMap AtomSpec.ex))) deriv =
        .ok (vals, d') := by
  have key : ∀ L : List AtomSpec, (∀ A ∈ L, A.pos.length = cols ∧ A.fns.1 + A.fns.2 ≠ 0 ∧
      A.co.length = A.fns.1 + A.fns.2 ∧
      A.ex.length = A.fns.1 + A.fns.2 ∧ (norm = true → ∀ a ∈ A.ex, 0 ≤ a)) →
      ∃ m d, Molecular.init (.two cols (xs.map fins)) cols (L.map fun A => fins A.pos)
        (L.map fun A => ((A.fns.1 : ℤ), (A.fns.2 : ℤ))) norm = .ok m ∧
      m.evaluate (ND.vec (fins (L.flatMap AtomSpec.co))) (ND.vec (fins (L.flatMap AtomSpec.ex))) deriv =
        .ok (fins (xs.map fun x =>
          (L.map fun A => atomDensity A.fns.1 A.fns.2 norm A.co A.ex (distL x A.pos)).sum), d) := by
    intro L h
    have hl := specs_lengths L fun A hA => ⟨(h A hA).2.2.1, (h A hA).2.2.2.1⟩
    have hn : molNb (L.map AtomSpec.fns) = molOffset (L.map AtomSpec.fns) (L.map AtomSpec.fns).length := by
      rw [molNb, molOffset, List.take_length]
    obtain ⟨m, d, h1, h2⟩ := C14_sum_of_atoms cols xs norm (L.map AtomSpec.pos) (L.map AtomSpec.fns)
      (by simp) (by
        intro q hq
        obtain ⟨A, hA, rfl⟩ := List.mem_map.mp hq
        exact (h A hA).1) (by
        intro q hq
        obtain ⟨A, hA, rfl⟩ := List.mem_map.mp hq
        exact (h A hA).2.1) (L.flatMap AtomSpec.co) (L.flatMap AtomSpec.ex) (hl.1.trans hn) (hl.2.trans hn)
      (by
        intro hnorm a ha
        obtain ⟨A, hA, ha⟩ := List.mem_flatMap.mp ha
        exact (h A hA).2.2.2.2 hnorm a ha) deriv
    refine ⟨m, d, by simpa [Function.comp_def] using h1, h2.trans ?_⟩
    congr 2
    refine congrArg fins (List.map_congr_left fun x _ => ?_)
    exact molDensity_specs norm L (fun A hA => ⟨(h A hA).2.2.1, (h A hA).2.2.2.1⟩) x
  obtain ⟨m, d, h1, h2⟩ := key L h
  obtain ⟨m', d', h1', h2'⟩ := key L' fun A hA => h A (hp.mem_iff.mpr hA)
  refine ⟨m, m', _, d, d', h1, h1', h2, h2'.trans ?_⟩
  congr 2
  refine congrArg fins (List.map_congr_left fun x _ => ?_)
  exact ((hp.map _).sum_eq).symm

example : ∃ m m' vals d d',
    Molecular.init (.two 1 [fins [5]]) 1 [fins [0], fins [3]] [(2, 0), (0, 1)] false = .ok m ∧
    Molecular.init (.two 1 [fins [5]]) 1 [fins [3], fins [0]] [(0, 1), (2, 0)] false = .ok m' ∧
    m.evaluate (ND.vec (fins [1, 2, 3])) (ND.vec (fins [4, 5, 6])) false = .ok (vals, d) ∧
    m'.evaluate (ND.vec (fins [3, 1, 2])) (ND.vec (fins [6, 4, 5])) false = .ok (vals, d') := by
  have := C85_atom_order [⟨[0], (2, 0), [1, 2], [4, 5]⟩, ⟨[3], (0, 1), [3], [6]⟩]
    [⟨[3], (0, 1), [3], [6]⟩, ⟨[0], (2, 0), [1, 2], [4, 5]⟩] (List.Perm.swap _ _ _) 1 [[5]] false
    (by simp) false
  simpa using this

/-! ### Order of the basis functions -/

theorem atomDensity_pairs (norm : Bool) (s p : List (ℝ × ℝ)) (r : ℝ) :
    atomDensity s.length p.length norm ((s ++ p).map Prod.fst) ((s ++ p).map Prod.snd) r =
      (s.map fun a => a.1 * sBasis norm a.2 r).sum + (p.map fun a => a.1 * pBasis norm a.2 r).sum := by
  have hl : ∀ (l : List (ℝ × ℝ)) (g : ℝ → ℝ), (l.map fun a => a.1 * g a.2).sum =
      ∑ k ∈ Finset.range l.length, (l.getD k (0, 0)).1 * g (l.getD k (0, 0)).2 := by
    intro l g
    induction l with
    | nil => simp
    | cons a l ih => rw [List.map_cons, List.sum_cons, List.length_cons, Finset.sum_range_succ', ih]; simp [add_comm]
  have hg : ∀ k, ((s ++ p).map Prod.fst).getD k 0 = ((s ++ p).getD k (0, 0)).1 ∧
      ((s ++ p).map Prod.snd).getD k 0 = ((s ++ p).getD k (0, 0)).2 := by
    intro k
    simp only [List.getD_eq_getElem?_getD, List.getElem?_map]
    cases (s ++ p)[k]? <;> simp
  unfold atomDensity
  rw [Finset.sum_range_add, hl s fun e => sBasis norm e r, hl p fun e => pBasis norm e r]
  congr 1
  · refine Finset.sum_congr rfl fun k hk => ?_
    rw [Finset.mem_range] at hk
    rw [(hg k).1, (hg k).2, List.getD_append _ _ _ _ hk, basisFn, if_pos hk]
  · refine Finset.sum_congr rfl fun k hk => ?_
    rw [(hg _).1, (hg _).2, List.getD_append_right _ _ _ _ (by omega), basisFn, if_neg (by omega),
      Nat.add_sub_cancel_left]

/-- **C85** (order of the basis functions).  Reordering the s-type functions among themselves and the
p-type functions among themselves, coefficients together with exponents, gives the same values. -/
theorem C85_function_order {m : Atomic} {rs : List ℝ} (s s' p p' : List (ℝ × ℝ)) (hs : s.Perm s')
    (hp : p.Perm p') (hm : IsAtom m rs s.length p.length)
    (hpos : m.normalized = true → ∀ a ∈ s ++ p, 0 ≤ a.2) (deriv : Bool) :
    ∃ vals d d', m.evaluate (ND.vec (fins ((s ++ p).map Prod.fst))) (ND.vec (fins ((s ++ p).map Prod.snd)))
        deriv = .ok (vals, d) ∧
      m.evaluate (ND.vec (fins ((s' ++ p').map Prod.fst))) (ND.vec (fins ((s' ++ p').map Prod.snd)))
        deriv = .ok (vals, d') := by
  have hpp : (s ++ p).Perm (s' ++ p') := hs.append hp
  have e1 := evaluate_fins hm ((s ++ p).map Prod.fst) ((s ++ p).map Prod.snd) (by simp) (by simp) (by
    intro hn a ha
    obtain ⟨b, hb, rfl⟩ := List.mem_map.mp ha
    exact hpos hn b hb) deriv
  have e2 := evaluate_fins hm ((s' ++ p').map Prod.fst) ((s' ++ p').map Prod.snd)
    (by simp [hs.length_eq, hp.length_eq]) (by simp [hs.length_eq, hp.length_eq]) (by
    intro hn a ha
    obtain ⟨b, hb, rfl⟩ := List.mem_map.mp ha
    exact hpos hn b (hpp.mem_iff.mpr hb)) deriv
  have hv : rs.map (atomDensity s.length p.length m.normalized ((s' ++ p').map Prod.fst)
      ((s' ++ p').map Prod.snd)) = rs.map (atomDensity s.length p.length m.normalized ((s ++ p).map Prod.fst)
      ((s ++ p).map Prod.snd)) := by
    refine List.map_congr_left fun r _ => ?_
    have h1 := atomDensity_pairs m.normalized s p r
    have h2 := atomDensity_pairs m.normalized s' p' r
    rw [← hs.length_eq, ← hp.length_eq] at h2
    rw [h1, h2, (hs.map _).sum_eq, (hp.map _).sum_eq]
  rw [hv] at e2
  exact ⟨_, _, _, e1, e2⟩

/-! ### Unit of length -/

theorem sBasis_unit {u : ℝ} (hu : 0 < u) (norm : Bool) (e r : ℝ) (he : 0 ≤ e) :
    sBasis norm (e / u ^ 2) (u * r) = (if norm then 1 / u ^ 3 else 1) * sBasis norm e r := by
  unfold sBasis
  have h1 : -(e / u ^ 2) * (u * r) ^ 2 = -e * r ^ 2 := by field_simp
  rw [h1]
  cases norm
  · simp
  · have h2 : (e / u ^ 2 / π) ^ (3 / 2 : ℝ) = (e / π) ^ (3 / 2 : ℝ) * (1 / u ^ 3) := by
      rw [show e / u ^ 2 / π = e / π / u ^ 2 by field_simp, Real.div_rpow (by positivity) (by positivity),
        ← Real.rpow_natCast u 2, ← Real.rpow_mul hu.le]
      norm_num
      rfl
    simp only [if_true, h2]
    ring

theorem pBasis_unit {u : ℝ} (hu : 0 < u) (norm : Bool) (e r : ℝ) (he : 0 ≤ e) :
    pBasis norm (e / u ^ 2) (u * r) = (if norm then 1 / u ^ 3 else u ^ 2) * pBasis norm e r := by
  unfold pBasis
  have h1 : -(e / u ^ 2) * (u * r) ^ 2 = -e * r ^ 2 := by field_simp
  rw [h1]
  cases norm
  · simp; ring
  · have h2 : (e / u ^ 2) ^ (5 / 2 : ℝ) = e ^ (5 / 2 : ℝ) * (1 / u ^ 5) := by
      rw [Real.div_rpow he (by positivity), ← Real.rpow_natCast u 2, ← Real.rpow_mul hu.le]
      norm_num
      rfl
    simp only [if_true, h2]
    field_simp

theorem distL_scale {u : ℝ} (hu : 0 < u) (x y : List ℝ) :
    distL (x.map (u * ·)) (y.map (u * ·)) = u * distL x y := by
  have h : (List.zipWith (fun a b => (a - b) ^ 2) (x.map (u * ·)) (y.map (u * ·))).sum =
      u ^ 2 * (List.zipWith (fun a b => (a - b) ^ 2) x y).sum := by
    induction x generalizing y with
    | nil => simp
    | cons a x ih =>
      cases y with
      | nil => simp
      | cons b y =>
        simp only [List.map_cons, List.zipWith_cons_cons, List.sum_cons]
        rw [ih]
        ring
  unfold distL
  rw [h, Real.sqrt_mul (by positivity), Real.sqrt_sq hu.le]

theorem basisFn_unit {u : ℝ} (hu : 0 < u) (ns k : ℕ) (e r : ℝ) (he : 0 ≤ e) :
    basisFn ns true k (e / u ^ 2) (u * r) = 1 / u ^ 3 * basisFn ns true k e r := by
  unfold basisFn
  split
  · rw [sBasis_unit hu true e r he, if_pos rfl]
  · rw [pBasis_unit hu true e r he, if_pos rfl]

theorem molDensity_unit {u : ℝ} (hu : 0 < u) (ats : List (ℕ × ℕ)) (ρ : ℕ → ℝ) (C E : List ℝ)
    (hE : ∀ a ∈ E, 0 ≤ a) :
    molDensity true ats (fun a => u * ρ a) C (E.map (· / u ^ 2)) = 1 / u ^ 3 * molDensity true ats ρ C E := by
  unfold molDensity
  rw [Finset.mul_sum]
  refine Finset.sum_congr rfl fun a _ => ?_
  simp only [atomDensity]
  rw [Finset.mul_sum]
  refine Finset.sum_congr rfl fun k _ => ?_
  have h1 : ∀ (l : List ℝ), (l.map (· / u ^ 2)).getD k 0 = l.getD k 0 / u ^ 2 := by
    intro l
    simp only [List.getD_eq_getElem?_getD, List.getElem?_map]
    cases l[k]? <;> simp
  rw [← List.map_drop, ← List.map_take, h1, basisFn_unit hu]
  · ring
  · set l := (E.drop (molOffset ats a)).take ((ats.getD a (0, 0)).1 + (ats.getD a (0, 0)).2)
    by_cases hk : k < l.length
    · rw [List.getD_eq_getElem _ _ hk]
      have hmem : l[k] ∈ l := List.getElem_mem hk
      exact hE _ (List.mem_of_mem_drop (List.mem_of_mem_take hmem))
    · rw [List.getD_eq_default _ _ (by omega)]

/-- **C85** (unit of length).  Measuring points and centres in a unit `u` times smaller, with exponents
divided by `u²` and the same coefficients, divides every value of a normalised model by `u³`: the
coefficients remain the integrals of the functions over space. -/
theorem C85_length_unit {u : ℝ} (hu : 0 < u) (cols : ℕ) (xs : List (List ℝ)) (coords : List (List ℝ))
    (ats : List (ℕ × ℕ)) (hlen : coords.length = ats.length) (hcols : ∀ q ∈ coords, q.length = cols)
    (hats : ∀ b ∈ ats, b.1 + b.2 ≠ 0) (C E : List ℝ)
    (hC : C.length = molOffset ats ats.length) (hE : E.length = molOffset ats ats.length)
    (hpos : ∀ a ∈ E, 0 ≤ a) (deriv : Bool) :
    ∃ m m' vals d d', Molecular.init (.two cols (xs.map fins)) cols (coords.map fins)
        (ats.map fun b => ((b.1 : ℤ), (b.2 : ℤ))) true = .ok m ∧
      Molecular.init (.two cols (xs.map fun x => fins (x.map (u * ·)))) cols
        (coords.map fun x => fins (x.map (u * ·))) (ats.map fun b => ((b.1 : ℤ), (b.2 : ℤ))) true = .ok m' ∧
      m.evaluate (ND.vec (fins C)) (ND.vec (fins E)) deriv = .ok (fins vals, d) ∧
      m'.evaluate (ND.vec (fins C)) (ND.vec (fins (E.map (· / u ^ 2)))) deriv =
        .ok (fins (vals.map (· / u ^ 3)), d') := by
  obtain ⟨m, d, h1, h2⟩ := C14_sum_of_atoms cols xs true coords ats hlen hcols hats C E hC hE (fun _ => hpos)
    deriv
  obtain ⟨m', d', h1', h2'⟩ := C14_sum_of_atoms cols (xs.map fun x => x.map (u * ·)) true
    (coords.map fun x => x.map (u * ·)) ats (by simpa using hlen) (by
      intro q hq
      obtain ⟨p, hp, rfl⟩ := List.mem_map.mp hq
      simpa using hcols p hp) hats C (E.map (· / u ^ 2)) hC (by simpa using hE) (by
      intro _ a ha
      obtain ⟨b, hb, rfl⟩ := List.mem_map.mp ha
      have := hpos b hb
      positivity) deriv
  refine ⟨m, m', _, d, d', h1, ?_, h2, h2'.trans ?_⟩
  · rw [List.map_map, List.map_map] at h1'
    exact h1'
  congr 2
  refine congrArg fins ?_
  rw [List.map_map, List.map_map]
  refine List.map_congr_left fun x _ => ?_
  simp only [Function.comp]
  rw [div_eq_mul_one_div, mul_comm, ← molDensity_unit hu ats _ C E hpos]
  congr 1
  funext a
  rw [← distL_scale hu]
  congr 1
  simp only [List.getD_eq_getElem?_getD, List.getElem?_map]
  cases coords[a]? <;> simp

/-- Two atoms and one point in bohr and in units of half a bohr. -/
example : ∃ m m' vals d d', Molecular.init (.two 1 [fins [3]]) 1 [fins [0], fins [1]] [(1, 0), (0, 1)]
      true = .ok m ∧
    Molecular.init (.two 1 [fins [6]]) 1 [fins [0], fins [2]] [(1, 0), (0, 1)] true = .ok m' ∧
    m.evaluate (ND.vec (fins [1, 5])) (ND.vec (fins [8, 12])) true = .ok (fins vals, d) ∧
    m'.evaluate (ND.vec (fins [1, 5])) (ND.vec (fins [2, 3])) true = .ok (fins (vals.map (· / 8)), d') := by
  obtain ⟨m, m', vals, d, d', h1, h2, h3, h4⟩ := C85_length_unit (u := 2) two_pos 1 [[3]] [[0], [1]]
    [(1, 0), (0, 1)] rfl (by simp) (by simp) [1, 5] [8, 12] rfl rfl (by simp) true
  refine ⟨m, m', vals, d, d', h1, ?_, h3, ?_⟩
  · norm_num at h2; exact h2
  · have e1 : ([8, 12] : List ℝ).map (· / 2 ^ 2) = [2, 3] := by norm_num
    rw [e1] at h4
    norm_num at h4 ⊢
    exact h4

example {m : Atomic} (hm : IsAtom m [0, 1, 2] 2 2) : ∃ vals d d',
    m.evaluate (ND.vec (fins [1, 2, 3, 4])) (ND.vec (fins [5, 6, 7, 8])) true = .ok (vals, d) ∧
    m.evaluate (ND.vec (fins [2, 1, 4, 3])) (ND.vec (fins [6, 5, 8, 7])) true = .ok (vals, d') :=
  C85_function_order [(1, 5), (2, 6)] [(2, 6), (1, 5)] [(3, 7), (4, 8)] [(4, 8), (3, 7)]
    (List.Perm.swap _ _ _) (List.Perm.swap _ _ _) hm (by intro _ a ha; simp at ha; rcases ha with rfl | rfl | rfl | rfl <;> norm_num) true

end
end BFit
