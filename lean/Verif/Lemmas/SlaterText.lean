import Verif.Lemmas.Table
import Verif.Props.Config

/-! Reading a whole Slater file. -/

namespace BFit

open Classical

noncomputable section

/-! ### Several tables -/

/-- What reading several tables adds to the variables. -/
structure AddedAll (heavy : Bool) (bs : List TBlock) (t t' : Tbl) : Prop where
  orbitals : t'.orbitals = t.orbitals ++ (bs.flatMap TBlock.orbs).map Orb.label
  energies : t'.energies = t.energies ++ bs.flatMap TBlock.energies
  cusp : t'.cusp = if heavy then t.cusp else t.cusp ++ bs.flatMap TBlock.cusps
  exps : ∀ b ∈ bs, t'.exps [b.sub.letter] = (t.exps [b.sub.letter]).map (· ++ b.rows.map TRow.z)
  exps_other : ∀ k, (∀ b ∈ bs, k ≠ [b.sub.letter]) → t'.exps k = t.exps k
  basis : ∀ b ∈ bs, t'.basis [b.sub.letter] =
    (t.basis [b.sub.letter]).map (· ++ b.rows.map fun r => Orb.label ⟨r.n, b.sub⟩)
  basis_other : ∀ k, (∀ b ∈ bs, k ≠ [b.sub.letter]) → t'.basis k = t.basis k
  coeff : ∀ b ∈ bs, ∀ i < b.count, t'.coeff (Orb.label ⟨b.sub.l + 1 + i, b.sub⟩) =
    some (b.rows.map fun r => r.cs.getD i 0)
  coeff_other : ∀ x, (∀ b ∈ bs, ∀ i < b.count, x ≠ Orb.label ⟨b.sub.l + 1 + i, b.sub⟩) →
    t'.coeff x = t.coeff x

theorem tables_ok (heavy : Bool) (tf : Str → Py XR) (bs : List TBlock) (lines : List Str)
    (h : TablesText heavy tf bs lines) (hnd : (bs.map TBlock.sub).Nodup) (m : Mode) (hm : Ready m) (t : Tbl)
    (he : ∀ b ∈ bs, ∃ l, t.exps [b.sub.letter] = some l)
    (hb : ∀ b ∈ bs, ∃ l, t.basis [b.sub.letter] = some l) :
    ∃ t', tableLoop heavy tf lines m t = .ok t' ∧ AddedAll heavy bs t t' := by
  have hid : AddedAll heavy [] t t := by
    constructor <;> simp
  induction h generalizing m t with
  | eof => exact ⟨t, by rw [tableLoop], hid⟩
  | @blank l ls hl =>
    refine ⟨t, ?_, hid⟩
    cases hm with
    | scan => rw [tableLoop, if_pos (blank_iff.1 hl)]
    | rows s orbs => rw [tableLoop, if_neg (by rw [isRow_blank _ l (blank_iff.1 hl)]; decide), if_pos (blank_iff.1 hl)]
  | @cons b bs ls rest hwf hbt hrest ih =>
    rw [List.map_cons, List.nodup_cons] at hnd
    have hdist : ∀ b' ∈ bs, [b'.sub.letter] ≠ [b.sub.letter] := by
      intro b' hb' e
      have e' := Sub.letter_inj (List.cons.inj e).1
      exact hnd.1 (e' ▸ List.mem_map.mpr ⟨b', hb', rfl⟩)
    have hdl : ∀ b' ∈ bs, ∀ i j, Orb.label ⟨b'.sub.l + 1 + i, b'.sub⟩ ≠ Orb.label ⟨b.sub.l + 1 + j, b.sub⟩ := by
      intro b' hb' i j e
      unfold Orb.label at e
      exact hdist b' hb' (List.cons.inj e).2
    obtain ⟨t1, m1, hm1, h1, a1⟩ := block_ok heavy tf b hwf ls hbt rest m hm t (he b (by simp)) (hb b (by simp))
    obtain ⟨t2, h2, a2⟩ := ih hnd.2 m1 hm1 t1
      (fun b' hb' => by rw [a1.exps_other _ (hdist b' hb')]; exact he b' (by simp [hb']))
      (fun b' hb' => by rw [a1.basis_other _ (hdist b' hb')]; exact hb b' (by simp [hb']))
      (by constructor <;> simp)
    refine ⟨t2, by rw [h1, h2], ?_⟩
    constructor
    · rw [a2.orbitals, a1.orbitals]
      simp
    · rw [a2.energies, a1.energies]
      simp
    · rw [a2.cusp, a1.cusp]
      cases heavy <;> simp
    · intro b' hb'
      rcases List.mem_cons.mp hb' with rfl | hb'
      · rw [a2.exps_other _ (fun b'' h'' => (hdist b'' h'').symm), a1.exps]
      · rw [a2.exps b' hb', a1.exps_other _ (hdist b' hb')]
    · intro k hk
      rw [a2.exps_other k (fun b' hb' => hk b' (by simp [hb'])), a1.exps_other k (hk b (by simp))]
    · intro b' hb'
      rcases List.mem_cons.mp hb' with rfl | hb'
      · rw [a2.basis_other _ (fun b'' h'' => (hdist b'' h'').symm), a1.basis]
      · rw [a2.basis b' hb', a1.basis_other _ (hdist b' hb')]
    · intro k hk
      rw [a2.basis_other k (fun b' hb' => hk b' (by simp [hb'])), a1.basis_other k (hk b (by simp))]
    · intro b' hb' i hi
      rcases List.mem_cons.mp hb' with rfl | hb'
      · rw [a2.coeff_other _ (fun b'' h'' j _ => (hdl b'' h'' j i).symm), a1.coeff i hi]
      · rw [a2.coeff b' hb' i hi]
    · intro x hx
      rw [a2.coeff_other x (fun b' hb' => hx b' (by simp [hb'])), a1.coeff_other x (hx b (by simp))]

theorem titles_ok (heavy : Bool) (tf : Str → Py XR) (ti : List Str)
    (h : ∀ l ∈ ti, ¬ Blank l ∧ ¬ HasPattern l) (rest : List Str) (t : Tbl) :
    tableLoop heavy tf (ti ++ rest) .scan t = tableLoop heavy tf rest .scan t := by
  induction ti with
  | nil => rfl
  | cons l ti ih =>
    have h0 := h l (by simp)
    rw [List.cons_append, tableLoop, if_neg (mt blank_iff.2 h0.1),
      if_neg (by rw [isHeader_iff]; exact h0.2)]
    exact ih (fun l' hl' => h l' (by simp [hl']))

theorem skipBlank_ok (bl : List Str) (h : ∀ l ∈ bl, Blank l) (l : Str) (hl : ¬ Blank l)
    (rest : List Str) : skipBlank (bl ++ l :: rest) = some (l, rest) := by
  induction bl with
  | nil => rw [List.nil_append, skipBlank, if_neg (mt blank_iff.2 hl)]
  | cons b bl ih =>
    rw [List.cons_append, skipBlank, if_pos (blank_iff.1 (h b (by simp)))]
    exact ih (fun x hx => h x (by simp [hx]))

/-! ### Energies -/

theorem dropWhile_all {p : Char → Bool} (a s : Str) (h : ∀ c ∈ a, p c = true) :
    (a ++ s).dropWhile p = s.dropWhile p := by
  induction a with
  | nil => rfl
  | cons c a ih =>
    rw [List.cons_append, List.dropWhile_cons_of_pos (h c (by simp))]
    exact ih (fun x hx => h x (by simp [hx]))

theorem strip_E (a t : Str) (ha : ∀ c ∈ a, isSpace c = true) (ht : ∀ c ∈ t, isSpace c = true) :
    strip (a ++ 'E' :: t) = ['E'] := by
  unfold strip lstrip
  rw [dropWhile_all a _ ha, List.dropWhile_cons_of_neg (by decide), List.reverse_cons,
    dropWhile_all t.reverse _ (fun c hc => ht c (List.mem_reverse.mp hc)),
    List.dropWhile_cons_of_neg (by decide)]
  rfl

theorem takeWhile_stop (a : Str) (c : Char) (s : Str) (h : c ∉ a) :
    (a ++ c :: s).takeWhile (· ≠ c) = a ∧ (a ++ c :: s).dropWhile (· ≠ c) = c :: s := by
  induction a with
  | nil => simp
  | cons x a ih =>
    rw [List.mem_cons, not_or] at h
    have hx : decide (x ≠ c) = true := by simpa using fun e => h.1 e.symm
    obtain ⟨h1, h2⟩ := ih h.2
    rw [List.cons_append, List.takeWhile_cons_of_pos (p := fun x => decide (x ≠ c)) hx,
      List.dropWhile_cons_of_pos (p := fun x => decide (x ≠ c)) hx, h1, h2]
    exact ⟨rfl, rfl⟩

theorem takeWhile_none (a : Str) (c : Char) (h : c ∉ a) : a.takeWhile (· ≠ c) = a := by
  induction a with
  | nil => rfl
  | cons x a ih =>
    rw [List.mem_cons, not_or] at h
    rw [List.takeWhile_cons_of_pos (by simpa using fun e => h.1 e.symm), ih h.2]

theorem energyLine_ok (tf : Str → Py XR) (v : XR) (line : Str) (h : EnergyLine tf v line) :
    energyLine tf line = .ok v := by
  obtain ⟨a, t, b, rfl, ha, ht, hb, hv⟩ := h
  replace ha := ha.space
  replace ht := ht.space
  have hn : '=' ∉ a ++ 'E' :: t := by
    intro hm
    rw [List.mem_append, List.mem_cons] at hm
    rcases hm with hm | hm | hm
    · exact absurd (ha _ hm) (by decide)
    · exact absurd hm (by decide)
    · exact absurd (ht _ hm) (by decide)
  obtain ⟨h1, h2⟩ := takeWhile_stop (a ++ 'E' :: t) '=' b hn
  unfold energyLine
  rw [h1, h2, strip_E a t ha ht, if_neg (by simp)]
  simp only
  rw [takeWhile_none b '=' hb, hv]

theorem energyLine_nonblank (tf : Str → Py XR) (v : XR) (line : Str) (h : EnergyLine tf v line) :
    ¬ Blank line := by
  obtain ⟨a, t, b, rfl, ha, -, -, -⟩ := h
  replace ha := ha.space
  intro he
  have := lstrip_blank _ (blank_iff.1 he)
  unfold lstrip at this
  rw [List.append_assoc, dropWhile_all a _ ha, List.cons_append, List.dropWhile_cons_of_neg (by decide)] at this
  exact absurd this (by simp)

theorem digitRun_ok (d s : Str) (hd : ∀ x ∈ d, x.isDigit = true)
    (hs : ∀ c ∈ s.head?, c.isDigit = false) : digitRun (d ++ s) = (d, s) := by
  unfold digitRun
  induction d with
  | nil =>
    cases s with
    | nil => rfl
    | cons c s =>
      have := hs c (by simp)
      simp [this]
  | cons x d ih =>
    have hx := hd x (by simp)
    have := ih (fun y hy => hd y (by simp [hy]))
    rw [Prod.mk.injEq] at this
    rw [List.cons_append, List.takeWhile_cons_of_pos hx, List.dropWhile_cons_of_pos hx, this.1, this.2]

theorem energyMatch_number (w s : Str) (hw : NumberText w) (hs : ∀ c ∈ s.head?, c.isDigit = false) :
    energyMatch (w ++ s) = some (w, s) := by
  obtain ⟨c, d, d', rfl, hc, hd, hd', h1, h2⟩ := hw
  have hc' : c = '=' ∨ c = ' ' ∨ c = '-' := by simpa using hc
  have e : c :: d ++ '.' :: d' ++ s = c :: (d ++ '.' :: (d' ++ s)) := by simp
  rw [e]
  unfold energyMatch
  simp only [if_pos hc']
  rw [digitRun_ok d _ h1 (by simp)]
  simp only [if_neg hd]
  rw [digitRun_ok d' s h2 hs]
  simp only
  rw [if_pos ⟨by decide, hd'⟩]

theorem energyMatch_none (c : Char) (s : Str) (h : ∀ x ∈ s.head?, x.isDigit = false) :
    energyMatch (c :: s) = none := by
  unfold energyMatch
  have : digitRun s = ([], s) := digitRun_ok [] s (by simp) h
  simp only [this, if_true, ite_self]

theorem energyMatches_skip (p s : Str) (hp : NoDigits p) (hs : ∀ c ∈ s.head?, c.isDigit = false) (n : ℕ)
    (hn : p.length ≤ n) : energyMatches n (p ++ s) = energyMatches (n - p.length) s := by
  induction p generalizing n with
  | nil => rfl
  | cons x p ih =>
    rw [List.length_cons] at hn
    obtain ⟨n, rfl⟩ : ∃ m, n = m + 1 := ⟨n - 1, by omega⟩
    rw [List.cons_append, energyMatches, energyMatch_none]
    · rw [ih (fun y hy => hp y (by simp [hy])) n (by omega)]
      simp
    · intro y hy
      cases p with
      | nil => exact hs y hy
      | cons z p =>
        simp only [List.cons_append, List.head?_cons, Option.mem_def, Option.some.injEq] at hy
        exact hp y (by simp [hy])

theorem number_head (w s : Str) (hw : NumberText w) : ∀ c ∈ (w ++ s).head?, c.isDigit = false := by
  obtain ⟨c, d, d', rfl, hc, -⟩ := hw
  intro x hx
  simp only [List.cons_append, List.head?_cons, Option.mem_def, Option.some.injEq] at hx
  subst hx
  have hc' : c = '=' ∨ c = ' ' ∨ c = '-' := by simpa using hc
  rcases hc' with rfl | rfl | rfl <;> decide

theorem noDigits_head (p s : Str) (hp : NoDigits p) (hs : ∀ c ∈ s.head?, c.isDigit = false) :
    ∀ c ∈ (p ++ s).head?, c.isDigit = false := by
  cases p with
  | nil => exact hs
  | cons y p =>
    intro x hx
    simp only [List.cons_append, List.head?_cons, Option.mem_def, Option.some.injEq] at hx
    exact hp x (by simp [hx])

theorem energyMatches_number (w s : Str) (hw : NumberText w) (hs : ∀ c ∈ s.head?, c.isDigit = false) (n : ℕ) :
    energyMatches (n + 1) (w ++ s) = w :: energyMatches n s := by
  have h := energyMatch_number w s hw hs
  obtain ⟨c, d, d', rfl, -⟩ := hw
  rw [List.cons_append, List.cons_append, energyMatches]
  rw [List.cons_append, List.cons_append] at h
  rw [h]

theorem kineticLine_ok (tf : Str → Py XR) (t v : XR) (line : Str) (h : KineticLine tf t v line) :
    kineticLine tf line = .ok (t, v) := by
  obtain ⟨p0, w0, p1, w1, p2, w2, p3, e, g0, g1, g2, g3, n0, n1, n2, h0, h1⟩ := h
  have hlen : ∀ w, NumberText w → 1 ≤ w.length := by
    rintro w ⟨c, d, d', rfl, -⟩
    simp
  have l0 := hlen w0 n0
  have l1 := hlen w1 n1
  have l2 := hlen w2 n2
  have k3 : ∀ c ∈ p3.head?, c.isDigit = false := by
    have := noDigits_head p3 [] g3 (by simp)
    simpa using this
  have k2 := number_head w2 p3 n2
  have k2' := noDigits_head p2 _ g2 k2
  have k1 := number_head w1 (p2 ++ (w2 ++ p3)) n1
  have k1' := noDigits_head p1 _ g1 k1
  have k0 := number_head w0 (p1 ++ (w1 ++ (p2 ++ (w2 ++ p3)))) n0
  have he : line = p0 ++ (w0 ++ (p1 ++ (w1 ++ (p2 ++ (w2 ++ p3))))) := by rw [e]; simp
  have hm : energyMatches line.length line = [w0, w1, w2] := by
    have hl : line.length = p0.length + w0.length + p1.length + w1.length + p2.length + w2.length + p3.length := by
      rw [e]; simp only [List.length_append]
    have step : ∀ (n k : ℕ), k ≤ n → ∀ (p w s : Str), NoDigits p → NumberText w →
        (∀ c ∈ s.head?, c.isDigit = false) → k = p.length + 1 →
        energyMatches n (p ++ (w ++ s)) = w :: energyMatches (n - k) s := by
      intro n k hk p w s hp hw hs hke
      rw [energyMatches_skip p _ hp (number_head w s hw) n (by omega)]
      obtain ⟨m, hm⟩ : ∃ m, n - p.length = m + 1 := ⟨n - p.length - 1, by omega⟩
      rw [hm, energyMatches_number w s hw hs]
      congr 2
      omega
    have last : ∀ n, p3.length ≤ n → energyMatches n p3 = [] := by
      intro n hn
      have := energyMatches_skip p3 [] g3 (by simp) n hn
      rw [List.append_nil] at this
      rw [this]
      cases n - p3.length <;> rfl
    rw [he] at hl ⊢
    rw [step _ (p0.length + 1) (by rw [hl]; omega) p0 w0 _ g0 n0 k1' rfl,
      step _ (p1.length + 1) (by rw [hl]; omega) p1 w1 _ g1 n1 k2' rfl,
      step _ (p2.length + 1) (by rw [hl]; omega) p2 w2 _ g2 n2 k3 rfl,
      last _ (by rw [hl]; omega)]
  unfold kineticLine
  rw [hm]
  simp only [h0, h1]

end
end BFit
