import Verif.Lemmas.Config
import Verif.Lemmas.FPI

/-! Reading the tables of a Slater file. -/

namespace BFit

open Classical

noncomputable section

/-! ### Words -/

theorem splitAux_head (s cur : Str) (w : Str) (ws : List Str) (h : splitAux s cur = w :: ws)
    (hc : cur ≠ []) : ∃ t u, w = cur.reverse ++ t ∧ s = t ++ u := by
  induction s generalizing cur with
  | nil =>
    rw [splitAux, if_neg hc] at h
    exact ⟨[], [], by simpa using (List.cons.inj h).1.symm, rfl⟩
  | cons c s ih =>
    rw [splitAux] at h
    by_cases hs : isSpace c = true
    · rw [if_pos hs, if_neg hc] at h
      exact ⟨[], c :: s, by simpa using (List.cons.inj h).1.symm, rfl⟩
    · rw [if_neg hs] at h
      obtain ⟨t, u, h1, h2⟩ := ih (c :: cur) h (by simp)
      exact ⟨c :: t, u, by rw [h1]; simp, by rw [h2]; rfl⟩

theorem splitWs_cons_space (c : Char) (s : Str) (hs : isSpace c = true) :
    splitWs (c :: s) = splitWs s := by
  unfold splitWs
  rw [splitAux, if_pos hs, if_pos rfl]

theorem splitWs_lstrip (s : Str) (w : Str) (ws : List Str) (h : splitWs s = w :: ws) :
    ∃ u, lstrip s = w ++ u := by
  induction s with
  | nil => simp [splitWs, splitAux] at h
  | cons c s ih =>
    by_cases hs : isSpace c = true
    · rw [splitWs_cons_space c s hs] at h
      obtain ⟨u, hu⟩ := ih h
      refine ⟨u, ?_⟩
      rw [← hu]
      unfold lstrip
      rw [List.dropWhile_cons_of_pos hs]
    · have h' := h
      unfold splitWs at h'
      rw [splitAux, if_neg hs] at h'
      obtain ⟨t, u, h1, h2⟩ := splitAux_head s [c] w ws h' (by simp)
      refine ⟨u, ?_⟩
      unfold lstrip
      rw [List.dropWhile_cons_of_neg hs, h1, h2]
      simp

theorem splitAux_ne_nil (s cur : Str) (hc : cur ≠ []) : splitAux s cur ≠ [] := by
  induction s generalizing cur with
  | nil => rw [splitAux, if_neg hc]; simp
  | cons c s ih =>
    rw [splitAux]
    by_cases hs : isSpace c = true
    · rw [if_pos hs, if_neg hc]; simp
    · rw [if_neg hs]
      exact ih _ (by simp)

theorem lstrip_blank (s : Str) (h : splitWs s = []) : lstrip s = [] := by
  induction s with
  | nil => rfl
  | cons c s ih =>
    by_cases hs : isSpace c = true
    · rw [splitWs_cons_space c s hs] at h
      unfold lstrip
      rw [List.dropWhile_cons_of_pos hs]
      exact ih h
    · unfold splitWs at h
      rw [splitAux, if_neg hs] at h
      exact absurd h (splitAux_ne_nil s [c] (by simp))

/-! ### Kinds of lines -/

theorem isHeader_of_prefix (a : Str) (c : Char) (t : Str) (hc : c ∈ ['S', 'P', 'D', 'F', '|']) :
    isHeader (a ++ ' ' :: ' ' :: c :: ' ' :: ' ' :: t) = true := by
  have hc' : c = 'S' ∨ c = 'P' ∨ c = 'D' ∨ c = 'F' ∨ c = '|' := by simpa using hc
  have h0 : isHeader (' ' :: ' ' :: c :: ' ' :: ' ' :: t) = true := by
    rw [isHeader]
    rcases hc' with rfl | rfl | rfl | rfl | rfl <;> simp
  induction a with
  | nil => exact h0
  | cons x a ih =>
    rw [List.cons_append, isHeader.eq_def]
    split
    · rename_i c' s' e
      rw [Bool.or_eq_true]
      right
      rw [← (List.cons.inj e).2]
      exact ih
    · rename_i y s' _ e
      rw [← (List.cons.inj e).2]
      exact ih
    · rename_i e
      simp at e

theorem pattern_of_isHeader (s : Str) (h : isHeader s = true) : HasPattern s := by
  induction s with
  | nil => simp [isHeader] at h
  | cons x s ih =>
    have step : isHeader s = true → HasPattern (x :: s) := by
      intro hs
      obtain ⟨a, c, t, e, hc⟩ := ih hs
      exact ⟨x :: a, c, t, by rw [e]; rfl, hc⟩
    rw [isHeader.eq_def] at h
    split at h
    · rename_i c' s' e
      rw [Bool.or_eq_true] at h
      rcases h with h | h
      · refine ⟨[], c', s', e, ?_⟩
        simp only [Bool.or_eq_true, decide_eq_true_eq] at h
        simp only [List.mem_cons, List.not_mem_nil, or_false]
        tauto
      · rw [← (List.cons.inj e).2] at h
        exact step h
    · rename_i y s' _ e
      rw [← (List.cons.inj e).2] at h
      exact step h
    · exact absurd h (by decide)

theorem isHeader_iff (s : Str) : isHeader s = true ↔ HasPattern s := by
  refine ⟨pattern_of_isHeader s, ?_⟩
  rintro ⟨a, c, t, rfl, hc⟩
  exact isHeader_of_prefix a c t hc

theorem isRow_row (tf : Str → Py XR) (s : Sub) (r : TRow) (line : Str) (hn : r.n ≤ 9)
    (h : RowLine tf s r line) : isRow [s.letter] line = true := by
  obtain ⟨w, ws, h1, -, -⟩ := h
  obtain ⟨u, hu⟩ := splitWs_lstrip _ _ _ (words_iff.1 h1)
  unfold isRow
  rw [hu]
  simp [Orb.label, digitChar_isDigit hn]

theorem isRow_header (s : Sub) (b : TBlock) (line : Str) (h : HeaderLine b line) :
    isRow [s.letter] line = false := by
  obtain ⟨u, hu⟩ := splitWs_lstrip _ _ _ (words_iff.1 h.1)
  unfold isRow
  rw [hu]
  simp [Sub.letter_not_digit]

theorem isRow_blank (s : Str) (line : Str) (h : splitWs line = []) : isRow s line = false := by
  unfold isRow
  rw [lstrip_blank line h]

/-! ### Rows -/

theorem getColumn_label (s : Sub) (i : ℕ) (h : s.l + 1 + i ≤ 9) :
    getColumn (Orb.label ⟨s.l + 1 + i, s⟩) = .ok ((i + 2 : ℕ) : ℤ) := by
  unfold Orb.label getColumn
  have hp := pyInt_digitChar h
  cases s with
  | S =>
    simp only [Sub.letter, if_true]
    rw [hp]
    simp only [Except.map, Sub.l]
    congr 1
    push_cast
    ring
  | P =>
    simp only [Sub.letter, if_true]
    rw [if_neg (by decide), hp]
    simp only [Sub.l]
    congr 1
    push_cast
    ring
  | D =>
    simp only [Sub.letter, if_true]
    rw [if_neg (by decide), if_neg (by decide), hp]
    simp only [Except.map, Sub.l]
    congr 1
    push_cast
    ring
  | F =>
    simp only [Sub.letter, if_true]
    rw [if_neg (by decide), if_neg (by decide), if_neg (by decide), hp]
    simp only [Except.map, Sub.l]
    congr 1
    push_cast
    ring

theorem pyGet_nat {α : Type} (l : List α) (i : ℕ) (x : α) (h : l[i]? = some x) :
    pyGet l ((i : ℕ) : ℤ) = .ok x := by
  unfold pyGet
  have h0 : ¬ ((i : ℕ) : ℤ) < 0 := by omega
  simp only [if_neg h0, Int.toNat_natCast, h]

theorem floatWords_get {tf : Str → Py XR} {ws : List Str} {vs : List XR} (h : FloatWords tf ws vs) (i : ℕ)
    (hi : i < vs.length) : ∃ w, ws[i]? = some w ∧ tf w = .ok (vs.getD i 0) := by
  have hl : ws.length = vs.length := by
    have := congrArg List.length h
    simpa using this
  refine ⟨ws[i], by simp [hl, hi], ?_⟩
  have := congrArg (fun l => l[i]?) h
  simp only [List.getElem?_map] at this
  rw [List.getElem?_eq_getElem (by omega), List.getElem?_eq_getElem hi] at this
  simp only [Option.map_some, Option.some.injEq] at this
  rw [this]
  simp [List.getD_eq_getElem?_getD, hi]

theorem floats_of {tf : Str → Py XR} {ws : List Str} {vs : List XR} (h : FloatWords tf ws vs) :
    floats tf ws = .ok vs := by
  unfold floats
  unfold FloatWords at h
  induction ws generalizing vs with
  | nil =>
    cases vs with
    | nil => rfl
    | cons v vs => simp at h
  | cons w ws ih =>
    cases vs with
    | nil => simp at h
    | cons v vs =>
      simp only [List.map_cons, List.cons.injEq] at h
      rw [mapPy, h.1, ih h.2]

/-- Coefficients of a row are appended to the lists of the orbitals. -/
theorem rowCoeff_ok (tf : Str → Py XR) (s : Sub) (is : List ℕ) (hnd : is.Nodup)
    (his : ∀ i ∈ is, s.l + 1 + i ≤ 9) (lbl w : Str) (ws : List Str) (cs : List XR)
    (hcs : ∀ i ∈ is, i < cs.length) (hf : FloatWords tf ws cs) (d : Str → Option (List XR))
    (hd : ∀ i ∈ is, ∃ l, d (Orb.label ⟨s.l + 1 + i, s⟩) = some l) :
    ∃ d', rowCoeff tf (lbl :: w :: ws) (is.map fun i => Orb.label ⟨s.l + 1 + i, s⟩) d = .ok d' ∧
      (∀ i ∈ is, d' (Orb.label ⟨s.l + 1 + i, s⟩) =
        (d (Orb.label ⟨s.l + 1 + i, s⟩)).map (· ++ [cs.getD i 0])) ∧
      ∀ x, (∀ i ∈ is, x ≠ Orb.label ⟨s.l + 1 + i, s⟩) → d' x = d x := by
  induction is generalizing d with
  | nil => exact ⟨d, rfl, by simp, fun x _ => rfl⟩
  | cons i is ih =>
    have hinj : ∀ j ∈ is, Orb.label ⟨s.l + 1 + j, s⟩ ≠ Orb.label ⟨s.l + 1 + i, s⟩ := by
      intro j hj e
      have e1 := digitChar_inj (his j (by simp [hj])) (his i (by simp)) (List.cons.inj e).1
      have : j = i := by omega
      rw [this] at hj
      exact (List.nodup_cons.mp hnd).1 hj
    obtain ⟨l, hl⟩ := hd i (by simp)
    obtain ⟨w', hw1, hw2⟩ := floatWords_get hf i (hcs i (by simp))
    obtain ⟨d', h1, h2, h3⟩ := ih (List.nodup_cons.mp hnd).2 (fun j hj => his j (by simp [hj]))
      (fun j hj => hcs j (by simp [hj]))
      (dictSet d (Orb.label ⟨s.l + 1 + i, s⟩) (l ++ [cs.getD i 0])) (fun j hj => by
        unfold dictSet
        rw [if_neg (hinj j hj)]
        exact hd j (by simp [hj]))
    refine ⟨d', ?_, ?_, ?_⟩
    · rw [List.map_cons, rowCoeff, hl]
      simp only
      rw [getColumn_label s i (his i (by simp))]
      simp only
      rw [pyGet_nat (lbl :: w :: ws) (i + 2) w' (by simpa using hw1)]
      simp only [hw2]
      exact h1
    · intro j hj
      rcases List.mem_cons.mp hj with rfl | hj
      · rw [h3 _ (fun k hk => (hinj k hk).symm)]
        unfold dictSet
        rw [if_pos rfl, hl]
        rfl
      · rw [h2 j hj]
        unfold dictSet
        rw [if_neg (hinj j hj)]
    · intro x hx
      rw [h3 x (fun j hj => hx j (by simp [hj]))]
      unfold dictSet
      rw [if_neg (hx i (by simp))]

/-- What reading a table adds to the variables. -/
structure Added (heavy : Bool) (b : TBlock) (t t' : Tbl) : Prop where
  orbitals : t'.orbitals = t.orbitals ++ b.orbs.map Orb.label
  energies : t'.energies = t.energies ++ b.energies
  cusp : t'.cusp = if heavy then t.cusp else t.cusp ++ b.cusps
  exps : t'.exps [b.sub.letter] = (t.exps [b.sub.letter]).map (· ++ b.rows.map TRow.z)
  exps_other : ∀ k, k ≠ [b.sub.letter] → t'.exps k = t.exps k
  basis : t'.basis [b.sub.letter] =
    (t.basis [b.sub.letter]).map (· ++ b.rows.map fun r => Orb.label ⟨r.n, b.sub⟩)
  basis_other : ∀ k, k ≠ [b.sub.letter] → t'.basis k = t.basis k
  coeff : ∀ i < b.count, t'.coeff (Orb.label ⟨b.sub.l + 1 + i, b.sub⟩) =
    some (b.rows.map fun r => r.cs.getD i 0)
  coeff_other : ∀ x, (∀ i < b.count, x ≠ Orb.label ⟨b.sub.l + 1 + i, b.sub⟩) → t'.coeff x = t.coeff x

/-- Rows of a table. -/
theorem rows_ok (heavy : Bool) (tf : Str → Py XR) (s : Sub) (count : ℕ) (hcount : s.l + count ≤ 7)
    (rows : List TRow) (hrows : ∀ r ∈ rows, r.n ≤ 9 ∧ r.cs.length = count) (rl : List Str)
    (h : List.Forall₂ (RowLine tf s) rows rl) (rest : List Str) (t : Tbl)
    (he : ∃ l, t.exps [s.letter] = some l) (hb : ∃ l, t.basis [s.letter] = some l)
    (hc : ∀ i < count, ∃ l, t.coeff (Orb.label ⟨s.l + 1 + i, s⟩) = some l) :
    ∃ t', tableLoop heavy tf (rl ++ rest)
        (.rows [s.letter] ((List.range count).map fun i => Orb.label ⟨s.l + 1 + i, s⟩)) t =
        tableLoop heavy tf rest
          (.rows [s.letter] ((List.range count).map fun i => Orb.label ⟨s.l + 1 + i, s⟩)) t' ∧
      t'.orbitals = t.orbitals ∧ t'.energies = t.energies ∧ t'.cusp = t.cusp ∧
      t'.exps [s.letter] = (t.exps [s.letter]).map (· ++ rows.map TRow.z) ∧
      (∀ k, k ≠ [s.letter] → t'.exps k = t.exps k) ∧
      t'.basis [s.letter] = (t.basis [s.letter]).map (· ++ rows.map fun r => Orb.label ⟨r.n, s⟩) ∧
      (∀ k, k ≠ [s.letter] → t'.basis k = t.basis k) ∧
      (∀ i < count, t'.coeff (Orb.label ⟨s.l + 1 + i, s⟩) =
        (t.coeff (Orb.label ⟨s.l + 1 + i, s⟩)).map (· ++ rows.map fun r => r.cs.getD i 0)) ∧
      (∀ x, (∀ i < count, x ≠ Orb.label ⟨s.l + 1 + i, s⟩) → t'.coeff x = t.coeff x) := by
  induction h generalizing t with
  | nil => exact ⟨t, rfl, rfl, rfl, rfl, by simp, fun _ _ => rfl, by simp, fun _ _ => rfl, by simp,
      fun _ _ => rfl⟩
  | @cons r line rows rl hr hrl ih =>
    have hrow := isRow_row tf s r line (hrows r (by simp)).1 hr
    obtain ⟨w, ws, g1, g2, g3⟩ := hr
    obtain ⟨le, hle⟩ := he
    obtain ⟨lb, hlb⟩ := hb
    obtain ⟨d', k1, k2, k3⟩ := rowCoeff_ok tf s (List.range count) List.nodup_range
      (fun i hi => by have := List.mem_range.mp hi; omega) (Orb.label ⟨r.n, s⟩) w ws r.cs
      (fun i hi => by rw [(hrows r (by simp)).2]; exact List.mem_range.mp hi) g3 t.coeff
      (fun i hi => hc i (List.mem_range.mp hi))
    set t1 : Tbl := { t with exps := dictSet t.exps [s.letter] (le ++ [r.z]),
                             basis := dictSet t.basis [s.letter] (lb ++ [Orb.label ⟨r.n, s⟩]),
                             coeff := d' } with ht1
    have hadd : addRow tf [s.letter] ((List.range count).map fun i => Orb.label ⟨s.l + 1 + i, s⟩) line t =
        .ok t1 := by
      unfold addRow
      simp only [hle, hlb]
      rw [words_iff.1 g1]
      rw [show pyGet (Orb.label ⟨r.n, s⟩ :: w :: ws) 1 = .ok w from rfl]
      simp only [g2]
      rw [show pyGet (Orb.label ⟨r.n, s⟩ :: w :: ws) 0 = .ok (Orb.label ⟨r.n, s⟩) from rfl]
      simp only [k1]
      rfl
    obtain ⟨t', f0, f1, f2, f3, f4, f5, f6, f7, f8, f9⟩ := ih (fun r' hr' => hrows r' (by simp [hr'])) t1
      ⟨le ++ [r.z], by simp [ht1, dictSet]⟩ ⟨lb ++ [Orb.label ⟨r.n, s⟩], by simp [ht1, dictSet]⟩
      (fun i hi => by
        obtain ⟨l, hl⟩ := hc i hi
        exact ⟨l ++ [r.cs.getD i 0], by
          change d' _ = _
          rw [k2 i (List.mem_range.mpr hi), hl]
          rfl⟩)
    refine ⟨t', ?_, f1, f2, f3, ?_, ?_, ?_, ?_, ?_, ?_⟩
    · rw [List.cons_append, tableLoop, if_pos hrow, hadd]
      exact f0
    · rw [f4, hle]
      simp [ht1, dictSet]
    · intro k hk
      rw [f5 k hk]
      simp [ht1, dictSet, hk]
    · rw [f6, hlb]
      simp [ht1, dictSet]
    · intro k hk
      rw [f7 k hk]
      simp [ht1, dictSet, hk]
    · intro i hi
      rw [f8 i hi]
      change (d' _).map _ = _
      rw [k2 i (List.mem_range.mpr hi), Option.map_map]
      congr 1
      funext l
      simp
    · intro x hx
      rw [f9 x hx]
      change d' x = _
      exact k3 x (fun i hi => hx i (List.mem_range.mp hi))

theorem header_coeff (orbs : List Str) (d : Str → Option (List XR)) (x : Str) :
    orbs.foldl (fun d x => dictSet d x []) d x = if x ∈ orbs then some [] else d x := by
  induction orbs generalizing d with
  | nil => simp
  | cons o orbs ih =>
    rw [List.foldl_cons, ih]
    by_cases h : x ∈ orbs
    · simp [h]
    · by_cases he : x = o
      · simp [he, dictSet]
      · simp [h, he, dictSet]

/-- The position from which the next table is read: before the first header or after the rows of the
previous table. -/
inductive Ready : Mode → Prop
  | scan : Ready .scan
  | rows (s : Sub) (orbs : List Str) : Ready (.rows [s.letter] orbs)

/-- One table. -/
theorem block_ok (heavy : Bool) (tf : Str → Py XR) (b : TBlock) (hb : b.wf) (ls : List Str)
    (h : BlockText heavy tf b ls) (rest : List Str) (m : Mode) (hm : Ready m) (t : Tbl)
    (he : ∃ l, t.exps [b.sub.letter] = some l) (hbs : ∃ l, t.basis [b.sub.letter] = some l) :
    ∃ t' m', Ready m' ∧ tableLoop heavy tf (ls ++ rest) m t = tableLoop heavy tf rest m' t' ∧
      Added heavy b t t' := by
  obtain ⟨hl, el, cl, rl, rfl, h1, h2, h3, h4⟩ := h
  have horb : b.orbs.map Orb.label = (List.range b.count).map fun i => Orb.label ⟨b.sub.l + 1 + i, b.sub⟩ := by
    unfold TBlock.orbs
    rw [List.map_map]
    rfl
  have hhd : isHeader hl = true := (isHeader_iff hl).mpr h1.2
  have hne : splitWs hl ≠ [] := by rw [words_iff.1 h1.1]; simp
  have hstart : tableLoop heavy tf (hl :: (el :: (cl ++ rl) ++ rest)) m t =
      tableLoop heavy tf (el :: (cl ++ rl) ++ rest)
        (.energy [b.sub.letter] ((List.range b.count).map fun i => Orb.label ⟨b.sub.l + 1 + i, b.sub⟩))
        (t.header ((List.range b.count).map fun i => Orb.label ⟨b.sub.l + 1 + i, b.sub⟩)) := by
    cases hm with
    | scan => rw [tableLoop, if_neg hne, if_pos hhd, words_iff.1 h1.1, horb]; rfl
    | rows s orbs =>
      rw [tableLoop, if_neg (by rw [isRow_header s b hl h1]; decide), if_neg hne, if_pos hhd, words_iff.1 h1.1, horb]
      rfl
  set os := (List.range b.count).map fun i => Orb.label ⟨b.sub.l + 1 + i, b.sub⟩ with hos
  have henergy : tableLoop heavy tf (el :: (cl ++ rl) ++ rest) (.energy [b.sub.letter] os) (t.header os) =
      tableLoop heavy tf (cl ++ rl ++ rest) (if heavy then .rows [b.sub.letter] os else
        .cusp [b.sub.letter] os) { t.header os with energies := t.energies ++ b.energies } := by
    obtain ⟨w, ws, g1, g2⟩ := h2
    rw [List.cons_append, tableLoop, words_iff.1 g1, List.tail_cons, floats_of g2]
    rfl
  set t1 : Tbl := { t.header os with energies := t.energies ++ b.energies,
                                     cusp := if heavy then t.cusp else t.cusp ++ b.cusps } with ht1
  have hcusp : tableLoop heavy tf (cl ++ rl ++ rest) (if heavy then .rows [b.sub.letter] os else
        .cusp [b.sub.letter] os) { t.header os with energies := t.energies ++ b.energies } =
      tableLoop heavy tf (rl ++ rest) (.rows [b.sub.letter] os) t1 := by
    cases heavy with
    | true =>
      simp only [if_true] at h3 ⊢
      rw [h3]
      rfl
    | false =>
      simp only [Bool.false_eq_true, if_false] at h3 ⊢
      obtain ⟨c, rfl, w, ws, g1, g2⟩ := h3
      rw [List.singleton_append, List.cons_append, tableLoop, words_iff.1 g1, List.tail_cons, floats_of g2]
      rfl
  have hcoef : ∀ i < b.count, t1.coeff (Orb.label ⟨b.sub.l + 1 + i, b.sub⟩) = some [] := by
    intro i hi
    change os.foldl (fun d x => dictSet d x []) t.coeff _ = _
    rw [header_coeff, if_pos]
    rw [hos]
    exact List.mem_map.mpr ⟨i, List.mem_range.mpr hi, rfl⟩
  obtain ⟨t', f0, f1, f2, f3, f4, f5, f6, f7, f8, f9⟩ := rows_ok heavy tf b.sub b.count hb.1 b.rows hb.2 rl h4
    rest t1 he hbs (fun i hi => ⟨[], hcoef i hi⟩)
  refine ⟨t', .rows [b.sub.letter] os, .rows b.sub os, ?_, ?_⟩
  · rw [List.cons_append, hstart, henergy, hcusp]
    exact f0
  · refine ⟨?_, f2, f3, f4, f5, f6, f7, ?_, ?_⟩
    · rw [f1, horb]
      rfl
    · intro i hi
      rw [f8 i hi, hcoef i hi]
      simp
    · intro x hx
      rw [f9 x hx]
      change os.foldl (fun d x => dictSet d x []) t.coeff x = _
      rw [header_coeff, if_neg]
      intro hmem
      rw [hos] at hmem
      obtain ⟨i, hi, rfl⟩ := List.mem_map.mp hmem
      exact hx i (List.mem_range.mp hi) rfl

end
end BFit
