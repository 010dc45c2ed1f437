import Verif.Props.ScipyFit

/-! Property C104: what the constructor of `ScipyFit` accepts. -/

namespace BFit

open Classical

noncomputable section

/-- Two sets of radial points that the constructor takes to be the same: equally many points (or one of the
two has a single point, which is compared with all points of the other), no two corresponding ones further
apart than `1e-12`. -/
def SamePoints (x y : List ℝ) : Prop :=
  (x.length = y.length ∨ x.length = 1 ∨ y.length = 1) ∧
    ∀ i j, i < x.length → j < y.length → (x.length = y.length → i = j) →
      |x.getD i 0 - y.getD j 0| ≤ 1e-12

theorem exists_zipWith {α : Type} (f : XR → XR → α) (P : α → Prop) (x y : List ℝ) :
    (∃ d ∈ List.zipWith f (fins x) (fins y), P d) ↔
      ∃ i, i < x.length ∧ i < y.length ∧ P (f (XR.fin (x.getD i 0)) (XR.fin (y.getD i 0))) := by
  induction x generalizing y with
  | nil => simp [fins]
  | cons a x ih =>
    cases y with
    | nil => simp [fins]
    | cons b y =>
      rw [show List.zipWith f (fins (a :: x)) (fins (b :: y)) =
        f (XR.fin a) (XR.fin b) :: List.zipWith f (fins x) (fins y) from rfl]
      constructor
      · rintro ⟨d, hd, h⟩
        rcases List.mem_cons.1 hd with rfl | hd
        · exact ⟨0, by simp, by simp, by simpa using h⟩
        · obtain ⟨i, h1, h2, h3⟩ := (ih y).1 ⟨d, hd, h⟩
          exact ⟨i + 1, by simpa using h1, by simpa using h2, by simpa using h3⟩
      · rintro ⟨i, h1, h2, h3⟩
        cases i with
        | zero => exact ⟨_, List.mem_cons_self, by simpa using h3⟩
        | succ i =>
          obtain ⟨d, hd, h⟩ := (ih y).2 ⟨i, by simpa using h1, by simpa using h2, by simpa using h3⟩
          exact ⟨d, List.mem_cons_of_mem _ hd, h⟩

theorem gt_fin (u : ℝ) : (XR.fin u).abs > XR.fin 1e-12 ↔ ¬ |u| ≤ 1e-12 := by
  simp [XR.abs_fin]

theorem mem_getD (x : List ℝ) (P : ℝ → Prop) : (∃ u ∈ x, P u) ↔ ∃ i, i < x.length ∧ P (x.getD i 0) := by
  constructor
  · rintro ⟨u, hu, h⟩
    obtain ⟨i, hi, rfl⟩ := List.mem_iff_getElem.1 hu
    exact ⟨i, hi, by simpa [hi] using h⟩
  · rintro ⟨i, hi, h⟩
    exact ⟨x[i], List.getElem_mem hi, by simpa [hi] using h⟩

theorem pointsDiffer_one (x y : List ℝ) :
    (SamePoints x y → pointsDiffer (.one (fins x)) (.one (fins y)) = some false) ∧
    (¬ SamePoints x y → pointsDiffer (.one (fins x)) (.one (fins y)) = some true ∨
      pointsDiffer (.one (fins x)) (.one (fins y)) = none) := by
  by_cases hc : x.length = y.length ∨ x.length = 1 ∨ y.length = 1
  · have e : pointsDiffer (.one (fins x)) (.one (fins y)) =
        some (decide (∃ d ∈ subRow (fins x) (fins y), d.abs > XR.fin 1e-12)) := by
      unfold pointsDiffer Pts.mat
      simp only [fins_length, List.length_cons, List.length_nil, hc, true_or, and_self, if_true,
        List.zipWith_cons_cons, List.zipWith_nil_left, List.mem_singleton, exists_eq_left]
    have key : (∃ d ∈ subRow (fins x) (fins y), d.abs > XR.fin 1e-12) ↔ ¬ SamePoints x y := by
      unfold subRow SamePoints
      simp only [hc, true_and]
      by_cases he : x.length = y.length
      · rw [if_pos (by simpa using he)]
        rw [exists_zipWith]
        simp only [XR.sub_fin, gt_fin]
        push Not
        constructor
        · rintro ⟨i, h1, h2, h3⟩
          exact ⟨i, i, h1, h2, fun _ => rfl, h3⟩
        · rintro ⟨i, j, h1, h2, h3, h4⟩
          obtain rfl := h3 he
          exact ⟨i, h1, h2, h4⟩
      · rw [if_neg (by simpa using he)]
        simp only [he, false_imp_iff, forall_const]
        by_cases h1 : y.length = 1
        · rw [if_pos (by simpa using h1)]
          obtain ⟨v, rfl⟩ := List.length_eq_one_iff.1 h1
          simp only [fins, List.map_map, List.mem_map, List.map_cons, List.map_nil, List.headD_cons,
            exists_exists_and_eq_and, Function.comp, XR.sub_fin, gt_fin]
          rw [mem_getD]
          push Not
          constructor
          · rintro ⟨i, hi, h⟩
            exact ⟨i, 0, hi, by simp, by simpa using h⟩
          · rintro ⟨i, j, hi, hj, h⟩
            obtain rfl : j = 0 := by simpa using hj
            exact ⟨i, hi, by simpa using h⟩
        · rw [if_neg (by simpa using h1)]
          have h2 : x.length = 1 := by rcases hc with h | h | h <;> [exact absurd h he; exact h; exact absurd h h1]
          obtain ⟨v, rfl⟩ := List.length_eq_one_iff.1 h2
          simp only [fins, List.map_map, List.mem_map, List.map_cons, List.map_nil, List.headD_cons,
            exists_exists_and_eq_and, Function.comp, XR.sub_fin, gt_fin]
          rw [mem_getD]
          push Not
          constructor
          · rintro ⟨i, hi, h⟩
            exact ⟨0, i, by simp, hi, by simpa using h⟩
          · rintro ⟨i, j, hi, hj, h⟩
            obtain rfl : i = 0 := by simpa using hi
            exact ⟨j, hj, by simpa using h⟩
    rw [e]
    refine ⟨fun h => ?_, fun h => Or.inl ?_⟩
    · rw [decide_eq_false]
      rw [key]; exact fun h' => h' h
    · rw [decide_eq_true (key.2 h)]
  · refine ⟨fun h => absurd h.1 hc, fun _ => Or.inr ?_⟩
    unfold pointsDiffer Pts.mat
    simp only [fins_length, hc, false_and, if_false]

/-- The names of the two methods, in upper or lower case letters. -/
def MethodName (method : String) : Prop :=
  method.toList.map Char.toLower = "slsqp".toList ∨ method.toList.map Char.toLower = "trust-constr".toList

theorem parse_some (method : String) : MethodName method ↔ ∃ m, SMethod.parse method = some m := by
  have h2 : "slsqp".toList = ['s', 'l', 's', 'q', 'p'] := by decide
  have h3 : "trust-constr".toList = ['t', 'r', 'u', 's', 't', '-', 'c', 'o', 'n', 's', 't', 'r'] := by decide
  unfold MethodName SMethod.parse
  rw [h2, h3]
  simp only
  split_ifs with a b <;> simp [a]
  · simp [b]
  · exact b

theorem parse_eq {method : String} {m : SMethod} (h : SMethod.parse method = some m) :
    m = if method.toList.map Char.toLower = "slsqp".toList then .slsqp else .trustConstr := by
  have h2 : "slsqp".toList = ['s', 'l', 's', 'q', 'p'] := by decide
  unfold SMethod.parse at h
  rw [h2]
  simp only at h
  split_ifs at h ⊢ with a b <;> simp_all

/-- **C104**.  On a radial grid and with a measure object the constructor of `ScipyFit` accepts exactly the
arguments where the points of the model are those of the grid, the density has one value per point and
none is negative, and the method is known; on all others it raises ValueError. -/
theorem C104_radial (x y : List ℝ) (density : List ℝ) (model : GModel) (hm : model.points = .one (fins y))
    (ms : Meas) (method : String) (weights : Option (List XR)) (T : Option XR) (spherical : Bool)
    (mask : XR) :
    (SamePoints x y ∧ density.length = x.length ∧ MethodName method ∧ (∀ v ∈ density, 0 ≤ v) →
      ∃ S, SFit.init (.radial ⟨fins x⟩) (fins density) model (.inst ms) method weights T spherical mask =
        .ok S) ∧
    (¬ (SamePoints x y ∧ density.length = x.length ∧ MethodName method ∧ ∀ v ∈ density, 0 ≤ v) →
      SFit.init (.radial ⟨fins x⟩) (fins density) model (.inst ms) method weights T spherical mask =
        .error .valueError) := by
  have hneg : (∀ v ∈ density, 0 ≤ v) ↔ ∀ v ∈ fins density, ¬ v < XR.fin 0 := by
    simp [fins]
  obtain ⟨hp1, hp2⟩ := pointsDiffer_one x y
  constructor
  · rintro ⟨h1, h2, h3, h4⟩
    obtain ⟨F, hF, -⟩ := (C32_construct (.radial ⟨fins x⟩) (fins density) model T spherical mask).2.2
      (hneg.1 h4) (fun _ => ⟨_, rfl⟩) (by simpa [Grid.len] using h2) trivial
    obtain ⟨m, hm'⟩ := (parse_some method).1 h3
    unfold SFit.init
    rw [hm, Grid.pts, hp1 h1]
    simp only
    rw [if_neg (by simp [Grid.len, h2]), hm']
    simp only [hF]
    exact ⟨_, rfl⟩
  · intro h
    unfold SFit.init
    rw [hm, Grid.pts]
    by_cases h1 : SamePoints x y
    · rw [hp1 h1]
      simp only
      by_cases h2 : density.length = x.length
      · rw [if_neg (by simp [Grid.len, h2])]
        by_cases h3 : MethodName method
        · obtain ⟨m, hm'⟩ := (parse_some method).1 h3
          rw [hm']
          have h4 : ¬ ∀ v ∈ density, 0 ≤ v := fun h4 => h ⟨h1, h2, h3, h4⟩
          rw [hneg] at h4
          push Not at h4
          have : Fit.init (.radial ⟨fins x⟩) (fins density) model T spherical mask = .error .valueError := by
            unfold Fit.init
            rw [if_pos h4]
            rfl
          simp only [this]
        · have : SMethod.parse method = none := by
            rcases hq : SMethod.parse method with _ | m
            · rfl
            · exact absurd ((parse_some method).2 ⟨m, hq⟩) h3
          rw [this]
          rfl
      · rw [if_pos (by simpa [Grid.len] using fun h => h2 h.symm)]
        rfl
    · rcases hp2 h1 with e | e
      · rw [e]; rfl
      · rw [e]; rfl

/-! ### Cubic grids -/

/-- As `SamePoints`, for points in space. -/
def SamePoints3 (x y : List (Fin 3 → ℝ)) : Prop :=
  (x.length = y.length ∨ x.length = 1 ∨ y.length = 1) ∧
    ∀ i j, i < x.length → j < y.length → (x.length = y.length → i = j) →
      ∀ d, |x.getD i 0 d - y.getD j 0 d| ≤ 1e-12

/-- The row of an array of points. -/
def row3 (p : Fin 3 → ℝ) : List XR := [XR.fin (p 0), XR.fin (p 1), XR.fin (p 2)]

theorem exists_zipWith3 {γ : Type} (f : List XR → List XR → γ) (P : γ → Prop) (x y : List (Fin 3 → ℝ)) :
    (∃ d ∈ List.zipWith f (x.map row3) (y.map row3), P d) ↔
      ∃ i, i < x.length ∧ i < y.length ∧ P (f (row3 (x.getD i 0)) (row3 (y.getD i 0))) := by
  induction x generalizing y with
  | nil => simp
  | cons a x ih =>
    cases y with
    | nil => simp
    | cons b y =>
      rw [List.map_cons, List.map_cons, List.zipWith_cons_cons]
      constructor
      · rintro ⟨d, hd, h⟩
        rcases List.mem_cons.1 hd with rfl | hd
        · exact ⟨0, by simp, by simp, by simpa using h⟩
        · obtain ⟨i, h1, h2, h3⟩ := (ih y).1 ⟨d, hd, h⟩
          exact ⟨i + 1, by simpa using h1, by simpa using h2, by simpa using h3⟩
      · rintro ⟨i, h1, h2, h3⟩
        cases i with
        | zero => exact ⟨_, List.mem_cons_self, by simpa using h3⟩
        | succ i =>
          obtain ⟨d, hd, h⟩ := (ih y).2 ⟨i, by simpa using h1, by simpa using h2, by simpa using h3⟩
          exact ⟨d, List.mem_cons_of_mem _ hd, h⟩

theorem mem_getD3 (x : List (Fin 3 → ℝ)) (P : (Fin 3 → ℝ) → Prop) :
    (∃ u ∈ x, P u) ↔ ∃ i, i < x.length ∧ P (x.getD i 0) := by
  constructor
  · rintro ⟨u, hu, h⟩
    obtain ⟨i, hi, rfl⟩ := List.mem_iff_getElem.1 hu
    exact ⟨i, hi, by simpa [hi] using h⟩
  · rintro ⟨i, hi, h⟩
    exact ⟨x[i], List.getElem_mem hi, by simpa [hi] using h⟩

theorem subRow3 (p q : Fin 3 → ℝ) :
    (∃ d ∈ subRow (row3 p) (row3 q), d.abs > XR.fin 1e-12) ↔ ¬ ∀ d, |p d - q d| ≤ 1e-12 := by
  unfold subRow row3
  rw [if_pos (by simp)]
  simp only [List.zipWith_cons_cons, List.zipWith_nil_left, List.mem_cons, List.not_mem_nil, or_false,
    exists_eq_or_imp, exists_eq_left, XR.sub_fin, gt_fin, Fin.forall_fin_succ, Fin.succ_zero_eq_one,
    Fin.succ_one_eq_two, IsEmpty.forall_iff, and_true]
  tauto

theorem pointsDiffer_two (x y : List (Fin 3 → ℝ)) :
    (SamePoints3 x y → pointsDiffer (.two 3 (x.map row3)) (.two 3 (y.map row3)) = some false) ∧
    (¬ SamePoints3 x y → pointsDiffer (.two 3 (x.map row3)) (.two 3 (y.map row3)) = some true ∨
      pointsDiffer (.two 3 (x.map row3)) (.two 3 (y.map row3)) = none) := by
  by_cases hc : x.length = y.length ∨ x.length = 1 ∨ y.length = 1
  · have key : ∃ b : List (List XR), pointsDiffer (.two 3 (x.map row3)) (.two 3 (y.map row3)) =
        some (decide (∃ row ∈ b, ∃ d ∈ row, d.abs > XR.fin 1e-12)) ∧
        ((∃ row ∈ b, ∃ d ∈ row, d.abs > XR.fin 1e-12) ↔ ¬ SamePoints3 x y) := by
      unfold pointsDiffer Pts.mat SamePoints3
      simp only [List.length_map, hc, true_or, and_self, if_true, true_and]
      refine ⟨_, rfl, ?_⟩
      by_cases he : x.length = y.length
      · rw [if_pos he]
        rw [exists_zipWith3 subRow (fun row => ∃ d ∈ row, d.abs > XR.fin 1e-12)]
        simp only [subRow3]
        constructor
        · rintro ⟨i, h1, h2, h3⟩ h
          exact h3 (h i i h1 h2 fun _ => rfl)
        · intro h
          by_contra hn
          refine h fun i j h1 h2 h3 => ?_
          obtain rfl := h3 he
          by_contra h4
          exact hn ⟨i, h1, h2, h4⟩
      · rw [if_neg he]
        simp only [he, false_imp_iff, forall_const]
        by_cases h1 : y.length = 1
        · rw [if_pos h1]
          obtain ⟨v, rfl⟩ := List.length_eq_one_iff.1 h1
          simp only [List.map_map, List.mem_map, List.map_cons, List.map_nil, List.headD_cons,
            exists_exists_and_eq_and, Function.comp, subRow3]
          rw [mem_getD3 x (fun u => ¬ ∀ d, |u d - v d| ≤ 1e-12)]
          constructor
          · rintro ⟨i, hi, h⟩ h'
            exact h (by simpa using h' i 0 hi (by simp))
          · intro h
            by_contra hn
            refine h fun i j hi hj => ?_
            obtain rfl : j = 0 := by simpa using hj
            by_contra h4
            exact hn ⟨i, hi, by simpa using h4⟩
        · rw [if_neg h1]
          have h2 : x.length = 1 := by
            rcases hc with h | h | h <;> [exact absurd h he; exact h; exact absurd h h1]
          obtain ⟨v, rfl⟩ := List.length_eq_one_iff.1 h2
          simp only [List.map_map, List.mem_map, List.map_cons, List.map_nil, List.headD_cons,
            exists_exists_and_eq_and, Function.comp, subRow3]
          rw [mem_getD3 y (fun u => ¬ ∀ d, |v d - u d| ≤ 1e-12)]
          constructor
          · rintro ⟨i, hi, h⟩ h'
            exact h (by simpa using h' 0 i (by simp) hi)
          · intro h
            by_contra hn
            refine h fun i j hi hj => ?_
            obtain rfl : i = 0 := by simpa using hi
            by_contra h4
            exact hn ⟨j, hj, by simpa using h4⟩
    obtain ⟨b, e, key⟩ := key
    rw [e]
    refine ⟨fun h => ?_, fun h => Or.inl ?_⟩
    · rw [decide_eq_false]
      rw [key]; exact fun h' => h' h
    · rw [decide_eq_true (key.2 h)]
  · refine ⟨fun h => absurd h.1 hc, fun _ => Or.inr ?_⟩
    unfold pointsDiffer Pts.mat
    simp only [List.length_map, hc, and_false, if_false]

/-- **C104** (cubic grids).  As on radial grids, and `spherical` must not be set. -/
theorem C104_cubic (x y : List (Fin 3 → ℝ)) (g : CubicGrid)
    (hg : g.points = x.map fun p d => XR.fin (p d)) (hw : g.weights.length = x.length) (density : List ℝ) (model : GModel)
    (hm : model.points = .two 3 (y.map row3)) (ms : Meas) (method : String) (weights : Option (List XR))
    (T : Option XR) (spherical : Bool) (mask : XR) :
    (SamePoints3 x y ∧ density.length = x.length ∧ MethodName method ∧ (∀ v ∈ density, 0 ≤ v) ∧
        spherical = false →
      ∃ S, SFit.init (.cubic g) (fins density) model (.inst ms) method weights T spherical mask = .ok S) ∧
    (¬ (SamePoints3 x y ∧ density.length = x.length ∧ MethodName method ∧ (∀ v ∈ density, 0 ≤ v) ∧
        spherical = false) →
      SFit.init (.cubic g) (fins density) model (.inst ms) method weights T spherical mask =
        .error .valueError) := by
  have hneg : (∀ v ∈ density, 0 ≤ v) ↔ ∀ v ∈ fins density, ¬ v < XR.fin 0 := by
    simp [fins]
  have hgp : (Grid.cubic g).pts = .two 3 (x.map row3) := by
    simp only [Grid.pts, hg, List.map_map]
    rfl
  have hgl : (Grid.cubic g).len = x.length := by simp [Grid.len, hg]
  obtain ⟨hp1, hp2⟩ := pointsDiffer_two x y
  constructor
  · rintro ⟨h1, h2, h3, h4, h5⟩
    obtain ⟨F, hF, -⟩ := (C32_construct (.cubic g) (fins density) model T spherical mask).2.2
      (hneg.1 h4) (fun h => by simp [h5] at h) (by simpa [hgl] using h2)
      (by simp [Grid.Full, hw, hg])
    obtain ⟨m, hm'⟩ := (parse_some method).1 h3
    unfold SFit.init
    rw [hm, hgp, hp1 h1, hgl]
    simp only
    rw [if_neg (by simp [h2]), hm']
    simp only [hF]
    exact ⟨_, rfl⟩
  · intro h
    unfold SFit.init
    rw [hm, hgp, hgl]
    by_cases h1 : SamePoints3 x y
    · rw [hp1 h1]
      simp only
      by_cases h2 : density.length = x.length
      · rw [if_neg (by simp [h2])]
        by_cases h3 : MethodName method
        · obtain ⟨m, hm'⟩ := (parse_some method).1 h3
          rw [hm']
          have : Fit.init (.cubic g) (fins density) model T spherical mask = .error .valueError := by
            unfold Fit.init
            by_cases h4 : ∀ v ∈ density, 0 ≤ v
            · have h5 : spherical = true := by
                by_contra h5
                exact h ⟨h1, h2, h3, h4, by simpa using h5⟩
              rw [hneg] at h4
              rw [if_neg (by push Not; exact h4), if_pos ⟨rfl, h5⟩]
              rfl
            · rw [hneg] at h4
              push Not at h4
              rw [if_pos h4]
              rfl
          simp only [this]
        · have : SMethod.parse method = none := by
            rcases hq : SMethod.parse method with _ | m
            · rfl
            · exact absurd ((parse_some method).2 ⟨m, hq⟩) h3
          rw [this]
          rfl
      · rw [if_pos (by simpa using fun h => h2 h.symm)]
        rfl
    · rcases hp2 h1 with e | e
      · rw [e]; rfl
      · rw [e]; rfl

/-! ### The default measure and measure objects (C45) -/

/-- **C45 fails**: with the default `measure` (the class) the constructor never returns; on a radial or cubic
grid it raises TypeError where a measure object is accepted. -/
theorem C45_default_raises :
    (∀ grid density model method weights T spherical mask S,
      SFit.init grid density model .klClass method weights T spherical mask ≠ .ok S) ∧
    (∀ (x y density : List ℝ) (model : GModel) method weights T spherical mask,
      model.points = .one (fins y) → SamePoints x y → density.length = x.length → MethodName method →
      SFit.init (.radial ⟨fins x⟩) (fins density) model .klClass method weights T spherical mask =
        .error .typeError) ∧
    (∀ (x y : List (Fin 3 → ℝ)) (g : CubicGrid) (density : List ℝ) (model : GModel) method weights T spherical
      mask, g.points = x.map (fun p d => XR.fin (p d)) → model.points = .two 3 (y.map row3) →
      SamePoints3 x y → density.length = x.length → MethodName method →
      SFit.init (.cubic g) (fins density) model .klClass method weights T spherical mask =
        .error .typeError) := by
  refine ⟨fun grid density model method weights T spherical mask =>
    (klClass_raises grid density model method weights T spherical mask).1, ?_, ?_⟩
  · intro x y density model method weights T spherical mask hm h1 h2 h3
    obtain ⟨m, hm'⟩ := (parse_some method).1 h3
    unfold SFit.init
    rw [hm, Grid.pts, (pointsDiffer_one x y).1 h1]
    simp only
    rw [if_neg (by simp [Grid.len, h2]), hm']
    rfl
  · intro x y g density model method weights T spherical mask hg hm h1 h2 h3
    obtain ⟨m, hm'⟩ := (parse_some method).1 h3
    have hgp : (Grid.cubic g).pts = .two 3 (x.map row3) := by
      simp only [Grid.pts, hg, List.map_map]
      rfl
    unfold SFit.init
    rw [hm, hgp, (pointsDiffer_two x y).1 h1]
    simp only
    rw [if_neg (by simp [Grid.len, hg, h2]), hm']
    rfl

/-- What the attributes of a new object are. -/
def SFit.Holds (S : SFit) (grid : Grid) (density : List XR) (model : GModel) (ms : Meas)
    (weights : Option (List XR)) (T : Option XR) (spherical : Bool) (mask : XR) : Prop :=
  S.grid = grid ∧ S.density = density ∧ S.model = model ∧ S.measure = ms ∧ S.spherical = spherical ∧
    S.maskValue = mask ∧ S.weights = weights.getD (List.replicate density.length (XR.fin 1)) ∧
    (∀ v, T = some v → S.integralDens = v) ∧ (T = none → S.integrate density = .ok S.integralDens)

/-- **C45** (partial).  With a measure object the constructor works on a radial grid and keeps its arguments:
the weights default to ones, the integral to that of the density.  Missing: the default measure
(`C45_default_raises`). -/
theorem C45_radial_partial (x y density : List ℝ) (model : GModel) (hm : model.points = .one (fins y))
    (ms : Meas) (method : String) (weights : Option (List XR)) (T : Option XR) (spherical : Bool) (mask : XR)
    (h1 : SamePoints x y) (h2 : density.length = x.length) (h3 : MethodName method)
    (h4 : ∀ v ∈ density, 0 ≤ v) :
    ∃ S, SFit.init (.radial ⟨fins x⟩) (fins density) model (.inst ms) method weights T spherical mask = .ok S ∧
      S.Holds (.radial ⟨fins x⟩) (fins density) model ms weights T spherical mask ∧
      S.method = if method.toList.map Char.toLower = "slsqp".toList then .slsqp else .trustConstr := by
  obtain ⟨m, hm'⟩ := (parse_some method).1 h3
  obtain ⟨S, e, a1, a2, a3, a4, a5, a6, a7, a8, a9, a10⟩ := instance_ok (.radial ⟨fins x⟩) (fins density) model
    ms method m hm' weights T spherical mask (by rw [hm, Grid.pts]; exact (pointsDiffer_one x y).1 h1)
    (by simp [Grid.len, h2]) trivial (by simpa [fins] using h4) (fun _ => ⟨_, rfl⟩)
  exact ⟨S, e, ⟨a1, a2, a3, a4, a6, a7, a8, a9, a10⟩, by rw [a5]; exact parse_eq hm'⟩

/-- **C45** (cubic grids, partial).  The same on a cubic grid. -/
theorem C45_cubic_partial (x y : List (Fin 3 → ℝ)) (g : CubicGrid)
    (hg : g.points = x.map fun p d => XR.fin (p d)) (hw : g.weights.length = x.length) (density : List ℝ) (model : GModel)
    (hm : model.points = .two 3 (y.map row3))
    (ms : Meas) (method : String) (weights : Option (List XR)) (T : Option XR) (mask : XR)
    (h1 : SamePoints3 x y) (h2 : density.length = x.length) (h3 : MethodName method)
    (h4 : ∀ v ∈ density, 0 ≤ v) :
    ∃ S, SFit.init (.cubic g) (fins density) model (.inst ms) method weights T false mask = .ok S ∧
      S.Holds (.cubic g) (fins density) model ms weights T false mask ∧
      S.method = if method.toList.map Char.toLower = "slsqp".toList then .slsqp else .trustConstr := by
  obtain ⟨m, hm'⟩ := (parse_some method).1 h3
  have hgp : (Grid.cubic g).pts = .two 3 (x.map row3) := by
    simp only [Grid.pts, hg, List.map_map]
    rfl
  obtain ⟨S, e, a1, a2, a3, a4, a5, a6, a7, a8, a9, a10⟩ := instance_ok (.cubic g) (fins density) model
    ms method m hm' weights T false mask (by rw [hm, hgp]; exact (pointsDiffer_two x y).1 h1)
    (by simp [Grid.len, hg, h2]) (by simp [Grid.Full, hw, hg]) (by simpa [fins] using h4) (by simp)
  exact ⟨S, e, ⟨a1, a2, a3, a4, a6, a7, a8, a9, a10⟩, by rw [a5]; exact parse_eq hm'⟩

/-- C45 on valid arguments: TypeError with the default measure, an object with an instance. -/
example : SFit.init (.radial ⟨fins [0, 1, 2]⟩) (fins [1, 1, 1]) (.atom (demoS true)) .klClass "SLSQP" none
      none false (XR.fin 1e-18) = .error .typeError ∧
    ∃ S, SFit.init (.radial ⟨fins [0, 1, 2]⟩) (fins [1, 1, 1]) (.atom (demoS true))
      (.inst (.kl ⟨XR.fin 0, XR.fin 7⟩)) "SLSQP" none none false (XR.fin 1e-18) = .ok S := by
  have hs : SamePoints [0, 1, 2] [0, 1, 2] := by
    refine ⟨Or.inl rfl, fun i j hi hj h => ?_⟩
    obtain rfl := h rfl
    norm_num
  refine ⟨C45_default_raises.2.1 [0, 1, 2] [0, 1, 2] [1, 1, 1] (.atom (demoS true)) _ _ _ _ _ rfl hs rfl
    ((parse_some _).2 ⟨_, parse_names.1⟩), ?_⟩
  obtain ⟨S, h, -⟩ := C45_radial_partial [0, 1, 2] [0, 1, 2] [1, 1, 1] (.atom (demoS true)) rfl
    (.kl ⟨XR.fin 0, XR.fin 7⟩) "SLSQP" none none false (XR.fin 1e-18) hs rfl
    ((parse_some _).2 ⟨_, parse_names.1⟩) (by simp)
  exact ⟨S, h⟩

/-- A model whose points are shifted by a millionth, in either direction, is refused, and so is a density
with a negative value; the same points are accepted. -/
example : SFit.init (.radial ⟨fins [0, 1, 2]⟩) (fins [1, 1, 1])
      (.atom ⟨.one (fins [0, 1, 2 + 1e-6]), [], [], 1, 0, true⟩) (.inst .sq) "SLSQP" none none false
      (XR.fin 0) = .error .valueError ∧
    SFit.init (.radial ⟨fins [0, 1, 2]⟩) (fins [1, 1, 1])
      (.atom ⟨.one (fins [0, 1, 2 - 1e-6]), [], [], 1, 0, true⟩) (.inst .sq) "SLSQP" none none false
      (XR.fin 0) = .error .valueError ∧
    SFit.init (.radial ⟨fins [0, 1, 2]⟩) (fins [1, -1, 1])
      (.atom ⟨.one (fins [0, 1, 2]), [], [], 1, 0, true⟩) (.inst .sq) "SLSQP" none none false
      (XR.fin 0) = .error .valueError ∧
    ∃ S, SFit.init (.radial ⟨fins [0, 1, 2]⟩) (fins [1, 1, 1])
      (.atom ⟨.one (fins [0, 1, 2]), [], [], 1, 0, true⟩) (.inst .sq) "SLSQP" none none false
      (XR.fin 0) = .ok S := by
  refine ⟨(C104_radial _ _ _ _ rfl _ _ _ _ _ _).2 ?_, (C104_radial _ _ _ _ rfl _ _ _ _ _ _).2 ?_,
    (C104_radial _ _ _ _ rfl _ _ _ _ _ _).2 ?_, (C104_radial _ _ _ _ rfl _ _ _ _ _ _).1 ?_⟩
  · rintro ⟨h, -⟩
    have := h.2 2 2 (by simp) (by simp) (fun _ => rfl)
    norm_num [abs_of_nonneg] at this
  · rintro ⟨h, -⟩
    have := h.2 2 2 (by simp) (by simp) (fun _ => rfl)
    norm_num [abs_of_nonneg] at this
  · rintro ⟨-, -, -, h⟩
    have := h (-1) (by simp)
    norm_num at this
  · refine ⟨⟨Or.inl rfl, fun i j hi hj h => ?_⟩, rfl, (parse_some _).2 ⟨_, parse_names.1⟩, by simp⟩
    obtain rfl := h rfl
    norm_num

/-- A cubic grid of one point: accepted for the same point, refused with `spherical`. -/
example (g : CubicGrid) (hg : g.points = [fun _ => XR.fin 1]) (hw : g.weights = [XR.fin 8]) :
    (∃ S, SFit.init (.cubic g) (fins [2]) (.atom ⟨.two 3 [row3 fun _ => 1], [], [], 1, 0, true⟩) (.inst .sq)
      "trust-constr" none none false (XR.fin 0) = .ok S) ∧
    SFit.init (.cubic g) (fins [2]) (.atom ⟨.two 3 [row3 fun _ => 1], [], [], 1, 0, true⟩) (.inst .sq)
      "trust-constr" none none true (XR.fin 0) = .error .valueError := by
  refine ⟨(C104_cubic [fun _ => 1] [fun _ => 1] g hg (by simp [hw]) _ _ rfl _ _ _ _ _ _).1 ?_,
    (C104_cubic [fun _ => 1] [fun _ => 1] g hg (by simp [hw]) _ _ rfl _ _ _ _ _ _).2 (by simp)⟩
  refine ⟨⟨Or.inl rfl, fun i j hi hj h d => ?_⟩, rfl, (parse_some _).2 ⟨_, parse_names.2.2⟩, by simp, rfl⟩
  obtain rfl := h rfl
  norm_num

end
end BFit
