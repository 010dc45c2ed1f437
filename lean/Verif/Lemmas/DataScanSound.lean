import Mathlib.Data.List.TakeWhile
import Verif.Lemmas.DataScan

/-! What the scanner accepts is a Slater file in the documented format. -/

namespace BFit

noncomputable section

/-- The number. -/
def Dec.val (d : Dec) : ℝ := (if d.neg then -1 else 1) * (d.mant : ℝ) / 10 ^ d.scale

/-- The number as a float. -/
def Dec.fl (d : Dec) : XR := .fin d.val

/-- The row with its numbers. -/
def DRow.toT (r : DRow) : TRow := ⟨r.n, r.z.fl, r.cs.map Dec.fl⟩

/-- The table with its numbers. -/
def DBlock.toT (b : DBlock) : TBlock :=
  ⟨b.sub, b.count, b.energies.map Dec.fl, b.cusps.map Dec.fl, b.rows.map DRow.toT⟩

/-- The file with its numbers. -/
def DFile.toS (f : DFile) : SFile :=
  ⟨f.core, f.items, f.energy.fl, f.kinetic.fl, f.potential.fl, f.blocks.map DBlock.toT⟩

theorem decBody_sound {neg : Bool} {s : Str} {d : Dec} (h : decBody neg s = some d) (a : Str)
    (ha : ∀ c ∈ a, isSpace c = true) : DecText (a ++ ((if neg then ['-'] else []) ++ s)) d.val := by
  unfold decBody at h
  split at h
  · next r hr =>
    split at h
    · exact absurd h (by simp)
    · next hc =>
      simp only [Bool.or_eq_true, not_or, List.isEmpty_iff, Bool.not_eq_true', Bool.not_eq_false] at hc
      simp only [Option.some.injEq] at h
      refine ⟨a, neg, s.takeWhile Char.isDigit, r.takeWhile Char.isDigit, r.dropWhile Char.isDigit, ?_, blank_of ha,
        blank_of ?_, hc.1, ?_, ?_, ?_⟩
      · rw [List.takeWhile_append_dropWhile, ← hr, List.takeWhile_append_dropWhile]
      · simpa using List.all_eq_true.mp hc.2
      · exact fun c hc => (List.mem_takeWhile_imp hc)
      · exact fun c hc => (List.mem_takeWhile_imp hc)
      · rw [← h]
        rfl
  · exact absurd h (by simp)

theorem decOf_sound {w : Str} {d : Dec} (h : decOf w = some d) : DecText w d.val := by
  have ha : ∀ c ∈ w.takeWhile isSpace, isSpace c = true := fun c hc => List.mem_takeWhile_imp hc
  unfold decOf at h
  split at h
  · next s hs =>
    have := decBody_sound h _ ha
    simp only [if_true] at this
    rwa [List.singleton_append, ← hs, List.takeWhile_append_dropWhile] at this
  · have := decBody_sound h _ ha
    simp only [Bool.false_eq_true, if_false] at this
    rwa [List.nil_append, List.takeWhile_append_dropWhile] at this

theorem decOf_reads {tf : Str → Py XR} (ht : ReadsDecimals tf) {w : Str} {d : Dec} (h : decOf w = some d) :
    tf w = .ok d.fl := ht w _ (decOf_sound h)

theorem mapOpt_some {α β : Type} {f : α → Option β} {l : List α} {l' : List β} (h : mapOpt f l = some l') :
    l.map f = l'.map some := by
  induction l generalizing l' with
  | nil =>
    simp only [mapOpt, Option.some.injEq] at h
    subst h
    rfl
  | cons a l ih =>
    rw [mapOpt] at h
    cases hf : f a with
    | none => rw [hf] at h; exact absurd h (by simp)
    | some b =>
      rw [hf] at h
      simp only at h
      cases hl : mapOpt f l with
      | none => rw [hl] at h; exact absurd h (by simp)
      | some bs =>
        rw [hl] at h
        simp only [Option.some.injEq] at h
        subst h
        rw [List.map_cons, List.map_cons, hf, ih hl]

theorem mapOpt_floats {tf : Str → Py XR} (ht : ReadsDecimals tf) {ws : List Str} {ds : List Dec}
    (h : mapOpt decF ws = some ds) : FloatWords tf ws (ds.map Dec.fl) := by
  have h' := mapOpt_some h
  clear h
  unfold FloatWords
  induction ws generalizing ds with
  | nil =>
    cases ds with
    | nil => rfl
    | cons d ds => simp at h'
  | cons w ws ih =>
    cases ds with
    | nil => simp at h'
    | cons d ds =>
      rw [List.map_cons, List.map_cons, List.cons.injEq] at h'
      rw [List.map_cons, List.map_cons, List.map_cons, decOf_reads ht (decF_of h'.1), ih h'.2]

theorem scanRow_sound {tf : Str → Py XR} (ht : ReadsDecimals tf) {s : Sub} {line : Str} {r : DRow}
    (h : scanRow s line = some r) : RowLine tf s r.toT line ∧ 1 ≤ r.n ∧ r.n ≤ 9 := by
  unfold scanRow at h
  rw [show splitF line [] = splitWs line from splitF_eq line []] at h
  split at h
  · next c l w ws hs =>
    split at h
    · next hc =>
      simp only [Bool.and_eq_true, beq_iff_eq, decide_eq_true_eq] at hc
      obtain ⟨⟨⟨h1, h2⟩, h3⟩, h4⟩ := hc
      cases hz : decF w with
      | none => rw [hz] at h; exact absurd h (by simp)
      | some z =>
        rw [hz] at h
        simp only at h
        cases hcs : mapOpt decF ws with
        | none => rw [hcs] at h; exact absurd h (by simp)
        | some cs =>
          rw [hcs] at h
          simp only [Option.some.injEq] at h
          subst h
          refine ⟨⟨w, ws, ?_, decOf_reads ht (decF_of hz), mapOpt_floats ht hcs⟩, h3, h4⟩
          rw [words_iff, hs]
          simp only [DRow.toT, Orb.label, h2, ← h1]
    · exact absurd h (by simp)
  · exact absurd h (by simp)

theorem scanRows_sound {tf : Str → Py XR} (ht : ReadsDecimals tf) {s : Sub} {lines : List Str}
    {rs : List DRow} {rest : List Str} (h : scanRows s lines = (rs, rest)) :
    ∃ rl, lines = rl ++ rest ∧ List.Forall₂ (RowLine tf s) (rs.map DRow.toT) rl ∧
      ∀ r ∈ rs, 1 ≤ r.n ∧ r.n ≤ 9 := by
  induction lines generalizing rs rest with
  | nil =>
    simp only [scanRows, Prod.mk.injEq] at h
    obtain ⟨rfl, rfl⟩ := h
    exact ⟨[], rfl, .nil, by simp⟩
  | cons l ls ih =>
    rw [scanRows] at h
    cases hr : scanRow s l with
    | none =>
      rw [hr] at h
      simp only [Prod.mk.injEq] at h
      obtain ⟨rfl, rfl⟩ := h
      exact ⟨[], rfl, .nil, by simp⟩
    | some r =>
      rw [hr] at h
      simp only at h
      cases hs : scanRows s ls with
      | mk rs' rest' =>
        rw [hs] at h
        simp only [Prod.mk.injEq] at h
        obtain ⟨rfl, rfl⟩ := h
        obtain ⟨rl, e, h1, h2⟩ := ih hs
        obtain ⟨g1, g2⟩ := scanRow_sound ht hr
        refine ⟨l :: rl, by rw [e, List.cons_append], ?_, ?_⟩
        · rw [List.map_cons]
          exact .cons g1 h1
        · intro x hx
          rcases List.mem_cons.mp hx with rfl | hx
          · exact g2
          · exact h2 x hx

theorem scanValues_sound {tf : Str → Py XR} (ht : ReadsDecimals tf) {line : Str} {ds : List Dec}
    (h : scanValues line = some ds) : ValuesLine tf (ds.map Dec.fl) line := by
  unfold scanValues at h
  rw [show splitF line [] = splitWs line from splitF_eq line []] at h
  split at h
  · next w ws hs => exact ⟨w, ws, words_iff.2 hs, mapOpt_floats ht h⟩
  · exact absurd h (by simp)

theorem subOf_letter {w : Str} {s : Sub} (h : subOf w = some s) : w = [s.letter] := by
  unfold subOf at h
  split at h <;> first | (simp only [Option.some.injEq] at h; subst h; rfl) | exact absurd h (by simp)

theorem scanBlock_sound {heavy : Bool} {tf : Str → Py XR} (ht : ReadsDecimals tf) {lines rest : List Str}
    {b : DBlock} (h : scanBlock heavy lines = some (b, rest)) :
    ∃ bl, lines = bl ++ rest ∧ BlockText heavy tf b.toT bl ∧ ∀ r ∈ b.rows, 1 ≤ r.n ∧ r.n ≤ 9 := by
  unfold scanBlock at h
  split at h
  · next hl e r1 =>
    split at h
    · next sw labels hw =>
      cases hsub : subOf sw with
      | none => rw [hsub] at h; exact absurd h (by simp)
      | some s =>
        rw [hsub] at h
        simp only at h
        split at h
        · next hc =>
          simp only [Bool.and_eq_true, beq_iff_eq] at hc
          obtain ⟨hc1, hc2⟩ := hc
          have hd : ∀ (es cu : List Dec) (rows : List DRow),
              HeaderLine (DBlock.toT ⟨s, labels.length, es, cu, rows⟩) hl := by
            intro es cu rows
            refine ⟨?_, (isHeader_iff _).mp hc1⟩
            rw [words_iff, hw, subOf_letter hsub]
            simp only [DBlock.toT, TBlock.orbs, List.map_map]
            congr 1
          cases hv : scanValues e with
          | none => rw [hv] at h; exact absurd h (by simp)
          | some es =>
            rw [hv] at h
            simp only at h
            have hv' := scanValues_sound ht hv
            cases heavy with
            | true =>
              simp only [if_true] at h
              cases hr : scanRows s r1 with
              | mk rows rest' =>
                rw [hr] at h
                simp only [Option.some.injEq, Prod.mk.injEq] at h
                obtain ⟨rfl, rfl⟩ := h
                obtain ⟨rl, e1, e2, e3⟩ := scanRows_sound ht hr
                refine ⟨hl :: e :: rl, by rw [e1]; rfl, ⟨hl, e, [], rl, rfl, hd _ _ _, hv', ?_, e2⟩, e3⟩
                rw [if_pos rfl]
            | false =>
              simp only [Bool.false_eq_true, if_false] at h
              cases r1 with
              | nil => exact absurd h (by simp)
              | cons c r2 =>
                simp only at h
                cases hcu : scanValues c with
                | none => rw [hcu] at h; exact absurd h (by simp)
                | some cu =>
                  rw [hcu] at h
                  simp only at h
                  cases hr : scanRows s r2 with
                  | mk rows rest' =>
                    rw [hr] at h
                    simp only [Option.some.injEq, Prod.mk.injEq] at h
                    obtain ⟨rfl, rfl⟩ := h
                    obtain ⟨rl, e1, e2, e3⟩ := scanRows_sound ht hr
                    refine ⟨hl :: e :: c :: rl, by rw [e1]; rfl,
                      ⟨hl, e, [c], rl, rfl, hd _ _ _, hv', ?_, e2⟩, e3⟩
                    rw [if_neg (by simp)]
                    exact ⟨c, rfl, scanValues_sound ht hcu⟩
        · exact absurd h (by simp)
    · exact absurd h (by simp)
  · exact absurd h (by simp)

/-- A table with at least one row, valid orbitals, rows of the right length and positive exponents. -/
structure DBlock.good (b : DBlock) : Prop where
  valid : b.sub.l + b.count ≤ 7
  energies : b.energies.length = b.count
  rows : b.rows ≠ []
  width : ∀ r ∈ b.rows, r.cs.length = b.count
  pos : ∀ r ∈ b.rows, r.z.neg = false ∧ 0 < r.z.mant
  nums : ∀ r ∈ b.rows, 1 ≤ r.n ∧ r.n ≤ 9

theorem DBlock.good_of_ok {b : DBlock} (h : b.ok = true) (hn : ∀ r ∈ b.rows, 1 ≤ r.n ∧ r.n ≤ 9) : b.good := by
  unfold DBlock.ok at h
  simp only [Bool.and_eq_true, decide_eq_true_eq, beq_iff_eq, Bool.not_eq_true', List.isEmpty_eq_false_iff,
    List.all_eq_true] at h
  obtain ⟨⟨⟨h1, h2⟩, h3⟩, h4⟩ := h
  exact ⟨h1, h2, h3, fun r hr => (h4 r hr).1.1, fun r hr => ⟨(h4 r hr).1.2, (h4 r hr).2⟩, hn⟩

theorem DBlock.good.wf {b : DBlock} (h : b.good) : b.toT.wf := by
  refine ⟨h.valid, fun r hr => ?_⟩
  obtain ⟨r', hr', rfl⟩ := List.mem_map.mp hr
  refine ⟨(h.nums r' hr').2, ?_⟩
  simp only [DRow.toT, List.length_map, h.width r' hr', DBlock.toT]

theorem Dec.val_pos {d : Dec} (h : d.neg = false ∧ 0 < d.mant) : 0 < d.val := by
  unfold Dec.val
  rw [h.1]
  have : (0 : ℝ) < d.mant := by exact_mod_cast h.2
  simp only [Bool.false_eq_true, if_false]
  positivity

theorem map_fl (l : List Dec) : l.map Dec.fl = fins (l.map Dec.val) := by
  unfold fins
  rw [List.map_map]
  rfl

theorem DBlock.good.finite {b : DBlock} (h : b.good) : b.toT.finite := by
  refine ⟨fun r hr => ?_, ⟨b.energies.map Dec.val, map_fl _⟩, ?_⟩
  · obtain ⟨r', hr', rfl⟩ := List.mem_map.mp hr
    exact ⟨(h.nums r' hr').1, ⟨_, Dec.val_pos (h.pos r' hr'), rfl⟩, _, map_fl _⟩
  · simp only [DBlock.toT, List.length_map, h.energies]

theorem scanTables_sound {heavy : Bool} {tf : Str → Py XR} (ht : ReadsDecimals tf) {n : ℕ} {lines : List Str}
    {bs : List DBlock} (h : scanTables heavy n lines = some bs) :
    TablesText heavy tf (bs.map DBlock.toT) lines ∧ ∀ b ∈ bs, b.good := by
  induction n generalizing lines bs with
  | zero =>
    cases lines with
    | nil =>
      simp only [scanTables, Option.some.injEq] at h
      subst h
      exact ⟨.eof, by simp⟩
    | cons l ls => exact absurd h (by simp [scanTables])
  | succ n ih =>
    cases lines with
    | nil =>
      simp only [scanTables, Option.some.injEq] at h
      subst h
      exact ⟨.eof, by simp⟩
    | cons l ls =>
      rw [scanTables] at h
      split at h
      · next hb =>
        simp only [Option.some.injEq] at h
        subst h
        exact ⟨.blank (blank_iff.2 (List.isEmpty_iff.mp hb)), by simp⟩
      · cases hs : scanBlock heavy (l :: ls) with
        | none => rw [hs] at h; exact absurd h (by simp)
        | some p =>
          obtain ⟨b, rest⟩ := p
          rw [hs] at h
          simp only at h
          split at h
          · next hok =>
            cases ht' : scanTables heavy n rest with
            | none => rw [ht'] at h; exact absurd h (by simp)
            | some bs' =>
              rw [ht'] at h
              simp only [Option.some.injEq] at h
              subst h
              obtain ⟨bl, e1, e2, e3⟩ := scanBlock_sound ht hs
              obtain ⟨g1, g2⟩ := ih ht'
              have hg := DBlock.good_of_ok hok e3
              rw [e1, List.map_cons]
              refine ⟨.cons hg.wf e2 g1, ?_⟩
              intro x hx
              rcases List.mem_cons.mp hx with rfl | hx
              · exact hg
              · exact g2 x hx
          · exact absurd h (by simp)

theorem scanConfig_sound {heavy : Bool} {line : Str} {core : Core} {items : List CfgItem}
    (h : scanConfig heavy line = some (core, items)) :
    (∃ name w ws, splitWs line = name :: w :: ws ∧ w.filter (· ≠ ',') = core.text ++ cfgText items) ∧
      (heavy = true ↔ core ≠ .all) := by
  unfold scanConfig at h
  split at h
  · next name w ws hs =>
    simp only at h
    cases hc : scanCore heavy (w.filter (· ≠ ',')) with
    | none => rw [hc] at h; exact absurd h (by simp)
    | some p =>
      obtain ⟨core', rest⟩ := p
      rw [hc] at h
      simp only at h
      cases hi : scanItems rest.length rest with
      | none => rw [hi] at h; exact absurd h (by simp)
      | some items' =>
        rw [hi] at h
        simp only at h
        split at h
        · next he =>
          simp only [Option.some.injEq, Prod.mk.injEq] at h
          obtain ⟨rfl, rfl⟩ := h
          refine ⟨⟨name, w, ws, hs, beq_iff_eq.mp he⟩, ?_⟩
          unfold scanCore at hc
          cases heavy with
          | true =>
            simp only [if_true] at hc
            split at hc
            · simp only [Option.some.injEq, Prod.mk.injEq] at hc
              rw [← hc.1]
              simp
            · split at hc
              · simp only [Option.some.injEq, Prod.mk.injEq] at hc
                rw [← hc.1]
                simp
              · exact absurd hc (by simp)
          | false =>
            simp only [Bool.false_eq_true, if_false, Option.some.injEq, Prod.mk.injEq] at hc
            rw [← hc.1]
            simp
        · exact absurd h (by simp)
  · exact absurd h (by simp)

theorem scanEnergy_sound {tf : Str → Py XR} (ht : ReadsDecimals tf) {line : Str} {d : Dec}
    (h : scanEnergy line = some d) : EnergyLine tf d.fl line := by
  unfold scanEnergy at h
  split at h
  · next s hs =>
    split at h
    · next b hb =>
      split at h
      · exact absurd h (by simp)
      · next hc =>
        refine ⟨line.takeWhile isSpace, s.takeWhile isSpace, b, ?_, blank_of fun c hc => List.mem_takeWhile_imp hc,
          blank_of fun c hc => List.mem_takeWhile_imp hc, ?_, decOf_reads ht h⟩
        · rw [List.append_assoc, List.cons_append, ← hb, List.takeWhile_append_dropWhile, ← hs,
            List.takeWhile_append_dropWhile]
        · simpa using hc
    · exact absurd h (by simp)
  · exact absurd h (by simp)

theorem scanNumber_sound {s p w r : Str} (h : scanNumber s = some (p, w, r)) :
    s = p ++ w ++ r ∧ NoDigits p ∧ NumberText w := by
  unfold scanNumber at h
  simp only at h
  split at h
  · next r' hr' =>
    split at h
    · next hc =>
      simp only [Bool.and_eq_true, Bool.or_eq_true, beq_iff_eq, Bool.not_eq_true',
        List.isEmpty_eq_false_iff] at hc
      simp only [Option.some.injEq, Prod.mk.injEq] at h
      obtain ⟨⟨⟨h1, h2⟩, h3⟩, h4⟩ := hc
      obtain ⟨rfl, rfl, rfl⟩ := h
      refine ⟨h4, ?_, ⟨_, _, _, rfl, ?_, h2, h3, fun c hc => List.mem_takeWhile_imp hc,
        fun c hc => List.mem_takeWhile_imp hc⟩⟩
      · intro x hx
        simpa using List.mem_takeWhile_imp (List.mem_of_mem_dropLast hx)
      · simp only [List.mem_cons, List.not_mem_nil, or_false]
        rcases h1 with (h | h) | h
        · exact Or.inl h
        · exact Or.inr (Or.inl h)
        · exact Or.inr (Or.inr h)
    · exact absurd h (by simp)
  · exact absurd h (by simp)

theorem scanKinetic_sound {tf : Str → Py XR} (ht : ReadsDecimals tf) {line : Str} {t v : Dec}
    (h : scanKinetic line = some (t, v)) : KineticLine tf t.fl v.fl line := by
  unfold scanKinetic at h
  cases h0 : scanNumber line with
  | none => rw [h0] at h; exact absurd h (by simp)
  | some x0 =>
    obtain ⟨p0, w0, r0⟩ := x0
    rw [h0] at h
    simp only at h
    cases h1 : scanNumber r0 with
    | none => rw [h1] at h; exact absurd h (by simp)
    | some x1 =>
      obtain ⟨p1, w1, r1⟩ := x1
      rw [h1] at h
      simp only at h
      cases h2 : scanNumber r1 with
      | none => rw [h2] at h; exact absurd h (by simp)
      | some x2 =>
        obtain ⟨p2, w2, r2⟩ := x2
        rw [h2] at h
        simp only at h
        split at h
        · next hr =>
          cases hd0 : decOf w0 with
          | none => rw [hd0] at h; exact absurd h (by simp)
          | some t' =>
            rw [hd0] at h
            simp only at h
            cases hd1 : decOf w1 with
            | none => rw [hd1] at h; exact absurd h (by simp)
            | some v' =>
              rw [hd1] at h
              simp only [Option.some.injEq, Prod.mk.injEq] at h
              obtain ⟨rfl, rfl⟩ := h
              obtain ⟨a0, b0, c0⟩ := scanNumber_sound h0
              obtain ⟨a1, b1, c1⟩ := scanNumber_sound h1
              obtain ⟨a2, b2, c2⟩ := scanNumber_sound h2
              refine ⟨p0, w0, p1, w1, p2, w2, r2, ?_, b0, b1, b2, ?_, c0, c1, c2, decOf_reads ht hd0,
                decOf_reads ht hd1⟩
              · rw [a0, a1, a2]
                simp only [List.append_assoc]
              · intro x hx
                simpa using List.all_eq_true.mp hr x hx
        · exact absurd h (by simp)

theorem isBlank_iff {l : Str} : isBlank l = true ↔ Blank l := List.isEmpty_iff.trans blank_iff.symm

theorem scanBody_sound {heavy : Bool} {tf : Str → Py XR} (ht : ReadsDecimals tf) {core : Core}
    {items : List CfgItem} {lines : List Str} {f : DFile} (h : scanBody heavy core items lines = some f) :
    f.core = core ∧ f.items = items ∧ (∀ b ∈ f.blocks, b.good) ∧
    ∃ el kl bl ti tabs, lines = el :: kl :: (bl ++ (ti ++ tabs)) ∧ EnergyLine tf f.energy.fl el ∧
      KineticLine tf f.kinetic.fl f.potential.fl kl ∧ (∀ l ∈ bl, Blank l) ∧
      (∀ l ∈ ti, ¬ Blank l ∧ ¬ HasPattern l) ∧ TablesText heavy tf (f.blocks.map DBlock.toT) tabs := by
  unfold scanBody at h
  split at h
  · next el kl rest =>
    cases he : scanEnergy el with
    | none => rw [he] at h; exact absurd h (by simp)
    | some e =>
      rw [he] at h
      simp only at h
      cases hk : scanKinetic kl with
      | none => rw [hk] at h; exact absurd h (by simp)
      | some p =>
        obtain ⟨t, v⟩ := p
        rw [hk] at h
        simp only at h
        cases hb : scanTables heavy rest.length ((rest.dropWhile isBlank).dropWhile isTitle) with
        | none => rw [hb] at h; exact absurd h (by simp)
        | some bs =>
          rw [hb] at h
          simp only [Option.some.injEq] at h
          subst h
          obtain ⟨g1, g2⟩ := scanTables_sound ht hb
          refine ⟨rfl, rfl, g2, el, kl, rest.takeWhile isBlank, (rest.dropWhile isBlank).takeWhile isTitle, _,
            ?_, scanEnergy_sound ht he, scanKinetic_sound ht hk, ?_, ?_, g1⟩
          · rw [List.takeWhile_append_dropWhile, List.takeWhile_append_dropWhile]
          · exact fun l hl => isBlank_iff.mp (List.mem_takeWhile_imp hl)
          · intro l hl
            have := List.mem_takeWhile_imp hl
            simp only [isTitle, Bool.and_eq_true, Bool.not_eq_true'] at this
            rw [← isBlank_iff, ← isHeader_iff, this.1, this.2]
            simp
  · exact absurd h (by simp)

/-- The scanner is sound. -/
theorem scanFile_sound {heavy : Bool} {tf : Str → Py XR} (ht : ReadsDecimals tf) {lines : List Str} {f : DFile}
    (h : scanFile heavy lines = some f) :
    FileText heavy tf f.toS lines ∧ ∀ b ∈ f.blocks, b.good := by
  unfold scanFile at h
  cases lines with
  | nil => exact absurd h (by simp)
  | cons l0 rest =>
    simp only at h
    cases hc : scanConfig heavy l0 with
    | none => rw [hc] at h; exact absurd h (by simp)
    | some p =>
      obtain ⟨core, items⟩ := p
      rw [hc] at h
      simp only at h
      obtain ⟨⟨name, w, ws, c1, c2⟩, c3⟩ := scanConfig_sound hc
      have hbl : ∀ l ∈ rest.takeWhile isBlank, Blank l :=
        fun l hl => isBlank_iff.mp (List.mem_takeWhile_imp hl)
      cases heavy with
      | true =>
        simp only [if_true, decide_eq_true_eq] at h
        split at h
        · next hl6 =>
          obtain ⟨e1, e2, hg, el, kl, bl, ti, tabs, d1, d2, d3, d4, d5, d6⟩ := scanBody_sound ht h
          refine ⟨⟨l0, name, w, ws, rest.takeWhile isBlank, (rest.dropWhile isBlank).take 6, el, kl, bl, ti, tabs,
            ?_, words_iff.2 c1, ?_, ?_, hbl, ?_, d2, d3, d4, d5, d6⟩, hg⟩
          · rw [← d1, List.take_append_drop, List.takeWhile_append_dropWhile]
          · rw [c2]
            simp only [DFile.toS, e1, e2]
          · rw [c3]
            simp only [DFile.toS, e1]
          · rw [if_pos rfl]
            refine ⟨by rw [List.length_take]; omega, ?_⟩
            cases hd : rest.dropWhile isBlank with
            | nil => rw [hd] at hl6; simp at hl6
            | cons x xs =>
              have := List.head?_dropWhile_not isBlank rest
              rw [hd] at this
              simp only [List.head?_cons] at this
              simp only [List.take_succ_cons, List.headD_cons]
              rw [← isBlank_iff]
              simp_all
        · exact absurd h (by simp)
      | false =>
        simp only [Bool.false_eq_true, if_false] at h
        obtain ⟨e1, e2, hg, el, kl, bl, ti, tabs, d1, d2, d3, d4, d5, d6⟩ := scanBody_sound ht h
        refine ⟨⟨l0, name, w, ws, rest.takeWhile isBlank, [], el, kl, bl, ti, tabs,
          ?_, words_iff.2 c1, ?_, ?_, hbl, ?_, d2, d3, d4, d5, d6⟩, hg⟩
        · rw [List.nil_append, ← d1, List.takeWhile_append_dropWhile]
        · rw [c2]
          simp only [DFile.toS, e1, e2]
        · rw [c3]
          simp only [DFile.toS, e1]
        · rw [if_neg (by simp)]

end
end BFit
