import Verif.Spec.Data
import Verif.Props.SlaterLoad

/-! A scanner for the text of the data files that can be evaluated, and its soundness: what it accepts is a
Slater file in the documented format (`FileText`). -/

namespace BFit

noncomputable section

/-! ### Numbers -/

/-- A decimal number: sign, digits, number of digits after the point. -/
structure Dec where
  neg : Bool
  mant : ℕ
  scale : ℕ

/-- Read a decimal number. -/
def decBody (neg : Bool) (s : Str) : Option Dec :=
  match s.dropWhile Char.isDigit with
  | '.' :: r =>
    if (r.takeWhile Char.isDigit).isEmpty || !(r.dropWhile Char.isDigit).all isSpace then none
    else some ⟨neg, decDigits (s.takeWhile Char.isDigit ++ r.takeWhile Char.isDigit),
      (r.takeWhile Char.isDigit).length⟩
  | _ => none

@[inherit_doc decBody]
def decOf (w : Str) : Option Dec :=
  match w.dropWhile isSpace with
  | '-' :: s => decBody true s
  | s => decBody false s

/-! The same functions in a form that the kernel evaluates faster. -/

/-- `splitWs`. -/
def splitF (s : Str) : Str → List Str :=
  List.rec (motive := fun _ => Str → List Str)
    (fun cur => List.casesOn cur [] (fun _ _ => [cur.reverse]))
    (fun c _ ih cur => Bool.rec (ih (c :: cur))
      (List.casesOn cur (ih []) (fun _ _ => cur.reverse :: ih [])) (isSpace c)) s

/-- Digits after the point. -/
def fracF (neg : Bool) (s : Str) : ℕ → ℕ → Option Dec :=
  List.rec (motive := fun _ => ℕ → ℕ → Option Dec)
    (fun m k => Nat.casesOn k none (fun _ => some ⟨neg, m, k⟩))
    (fun c t ih m k => Bool.rec
      (Nat.casesOn k none fun _ => Bool.rec none (some ⟨neg, m, k⟩) (isSpace c && t.all isSpace))
      (ih (Nat.add (Nat.mul 10 m) (Nat.sub c.toNat 48)) (Nat.succ k)) c.isDigit) s

/-- Digits before the point. -/
def intF (neg : Bool) (s : Str) : ℕ → Option Dec :=
  List.rec (motive := fun _ => ℕ → Option Dec) (fun _ => none)
    (fun c t ih m => Bool.rec (Bool.rec none (fracF neg t m 0) (Nat.beq c.toNat 46))
      (ih (Nat.add (Nat.mul 10 m) (Nat.sub c.toNat 48))) c.isDigit) s

/-- `decOf` without white space in front. -/
def decF (w : Str) : Option Dec :=
  List.casesOn w none fun c s => Bool.rec (intF false w 0) (intF true s 0) (Nat.beq c.toNat 45)

theorem splitF_eq (s cur : Str) : splitF s cur = splitAux s cur := by
  induction s generalizing cur with
  | nil => cases cur <;> rfl
  | cons c s ih =>
    rw [splitAux]
    change Bool.rec (motive := fun _ => List Str) (splitF s (c :: cur))
      (List.casesOn (motive := fun _ => List Str) cur (splitF s []) (fun _ _ => cur.reverse :: splitF s []))
      (isSpace c) = _
    cases isSpace c with
    | false => exact ih _
    | true => cases cur with
      | nil => exact ih []
      | cons x xs => exact congrArg _ (ih [])

theorem fracF_eq (neg : Bool) (s : Str) (m k : ℕ) :
    fracF neg s m k =
      if k + (s.takeWhile Char.isDigit).length = 0 ∨ (s.dropWhile Char.isDigit).all isSpace = false then none
      else some ⟨neg, (s.takeWhile Char.isDigit).foldl (fun a c => 10 * a + (c.toNat - 48)) m,
        k + (s.takeWhile Char.isDigit).length⟩ := by
  induction s generalizing m k with
  | nil => cases k <;> simp [fracF]
  | cons c s ih =>
    change Bool.rec (motive := fun _ => Option Dec)
      (Nat.casesOn (motive := fun _ => Option Dec) k none fun _ =>
        Bool.rec (motive := fun _ => Option Dec) none (some ⟨neg, m, k⟩) (isSpace c && s.all isSpace))
      (fracF neg s (10 * m + (c.toNat - 48)) (k + 1)) c.isDigit = _
    cases hc : c.isDigit with
    | true =>
      simp only [List.takeWhile_cons, List.dropWhile_cons, hc, if_true, ih, List.length_cons, List.foldl_cons]
      rw [show k + 1 + (List.takeWhile Char.isDigit s).length = k + ((List.takeWhile Char.isDigit s).length + 1) by
        omega]
    | false =>
      simp only [List.takeWhile_cons, List.dropWhile_cons, hc, Bool.false_eq_true, if_false, List.length_nil,
        List.foldl_nil, List.all_cons, Nat.add_zero]
      cases k with
      | zero => simp
      | succ k =>
        simp only [Nat.succ_ne_zero, false_or]
        cases isSpace c && s.all isSpace <;> rfl

theorem intF_eq (neg : Bool) (s : Str) (m : ℕ) :
    intF neg s m = match s.dropWhile Char.isDigit with
      | '.' :: r => fracF neg r ((s.takeWhile Char.isDigit).foldl (fun a c => 10 * a + (c.toNat - 48)) m) 0
      | _ => none := by
  induction s generalizing m with
  | nil => rfl
  | cons c s ih =>
    change Bool.rec (motive := fun _ => Option Dec)
      (Bool.rec (motive := fun _ => Option Dec) none (fracF neg s m 0) (Nat.beq c.toNat 46))
      (intF neg s (10 * m + (c.toNat - 48))) c.isDigit = _
    cases hc : c.isDigit with
    | true =>
      simp only [List.takeWhile_cons, List.dropWhile_cons, hc, if_true, ih, List.foldl_cons]
    | false =>
      simp only [List.takeWhile_cons, List.dropWhile_cons, hc, Bool.false_eq_true, if_false, List.foldl_nil]
      cases hb : Nat.beq c.toNat 46 with
      | true =>
        have : c = '.' := Char.toNat_inj.mp (Nat.eq_of_beq_eq_true hb)
        subst this
        rfl
      | false =>
        have : c ≠ '.' := by
          rintro rfl
          exact absurd hb (by decide)
        split
        · next r hr => exact absurd (List.cons.inj hr).1 this
        · rfl

theorem intF_body (neg : Bool) (s : Str) : intF neg s 0 = decBody neg s := by
  rw [intF_eq]
  unfold decBody
  split
  · next r hr =>
    simp only [fracF_eq, Nat.zero_add, decDigits, List.foldl_append, List.length_eq_zero_iff, Bool.or_eq_true,
      List.isEmpty_iff, Bool.not_eq_true']
  · rfl

theorem decF_of {w : Str} {d : Dec} (h : decF w = some d) : decOf w = some d := by
  cases w with
  | nil => exact absurd h (by simp [decF])
  | cons c s =>
    have h' : Bool.rec (motive := fun _ => Option Dec) (intF false (c :: s) 0) (intF true s 0) (Nat.beq c.toNat 45) = some d := h
    cases hb : Nat.beq c.toNat 45 with
    | true =>
      rw [hb] at h'
      have : c = '-' := Char.toNat_inj.mp (Nat.eq_of_beq_eq_true hb)
      subst this
      rw [show intF true s 0 = decBody true s from intF_body _ _] at h'
      exact h'
    | false =>
      rw [hb] at h'
      have hm : c ≠ '-' := by
        rintro rfl
        exact absurd hb (by decide)
      have h2 : decBody false (c :: s) = some d := (intF_body _ _).symm.trans h'
      have hs : isSpace c = false := by
        by_contra hc
        rw [Bool.not_eq_false] at hc
        have hd : c.isDigit = false := by
          unfold isSpace at hc
          unfold Char.isDigit
          simp only [Bool.or_eq_true, Bool.and_eq_true, decide_eq_true_eq] at hc
          rw [Bool.and_eq_false_iff, decide_eq_false_iff_not, decide_eq_false_iff_not]
          change ¬ 48 ≤ c.toNat ∨ ¬ c.toNat ≤ 57
          omega
        have hp : c ≠ '.' := by
          rintro rfl
          exact absurd hc (by decide)
        unfold decBody at h2
        rw [List.dropWhile_cons_of_neg (by simp [hd])] at h2
        split at h2
        · next r hr => exact absurd (List.cons.inj hr).1 hp
        · exact absurd h2 (by simp)
      unfold decOf
      rw [List.dropWhile_cons_of_neg (by simp [hs])]
      split
      · next hr => exact absurd (List.cons.inj hr).1 hm
      · exact h2

/-- Map with failure. -/
def mapOpt {α β : Type} (f : α → Option β) : List α → Option (List β)
  | [] => some []
  | a :: l => match f a with
    | none => none
    | some b => match mapOpt f l with
      | none => none
      | some bs => some (b :: bs)

/-! ### Contents of a file -/

/-- A row of a table. -/
structure DRow where
  n : ℕ
  z : Dec
  cs : List Dec

/-- A table. -/
structure DBlock where
  sub : Sub
  count : ℕ
  energies : List Dec
  cusps : List Dec
  rows : List DRow

/-- A file. -/
structure DFile where
  core : Core
  items : List CfgItem
  energy : Dec
  kinetic : Dec
  potential : Dec
  blocks : List DBlock

/-! ### Tables -/

/-- Subshell with the given letter. -/
def subOf : Str → Option Sub
  | ['S'] => some .S
  | ['P'] => some .P
  | ['D'] => some .D
  | ['F'] => some .F
  | _ => none

/-- A row. -/
def scanRow (s : Sub) (line : Str) : Option DRow :=
  match splitF line [] with
  | [c, l] :: w :: ws =>
    if l == s.letter && Nat.digitChar (c.toNat - 48) == c && decide (1 ≤ c.toNat - 48) &&
        decide (c.toNat - 48 ≤ 9) then
      match decF w with
      | none => none
      | some z => match mapOpt decF ws with
        | none => none
        | some cs => some ⟨c.toNat - 48, z, cs⟩
    else none
  | _ => none

/-- Rows as long as there are any, and the other lines. -/
def scanRows (s : Sub) : List Str → List DRow × List Str
  | [] => ([], [])
  | l :: ls => match scanRow s l with
    | none => ([], l :: ls)
    | some r => match scanRows s ls with
      | (rs, rest) => (r :: rs, rest)

/-- The numbers after the first word. -/
def scanValues (line : Str) : Option (List Dec) :=
  match splitF line [] with
  | _ :: ws => mapOpt decF ws
  | [] => none

/-- Labels of the orbitals of a table. -/
def blockLabels (s : Sub) (k : ℕ) : List Str := (List.range k).map fun i => Orb.label ⟨s.l + 1 + i, s⟩

/-- A table of the right shape: valid orbitals, as many energies, rows with as many coefficients and
positive exponents. -/
def DBlock.ok (b : DBlock) : Bool :=
  decide (b.sub.l + b.count ≤ 7) && b.energies.length == b.count && !b.rows.isEmpty &&
    b.rows.all fun r => r.cs.length == b.count && !r.z.neg && decide (0 < r.z.mant)

/-- A table and the other lines. -/
def scanBlock (heavy : Bool) (lines : List Str) : Option (DBlock × List Str) :=
  match lines with
  | h :: e :: r1 => match splitWs h with
    | sw :: labels => match subOf sw with
      | none => none
      | some s =>
        if isHeader h && labels == blockLabels s labels.length then
          match scanValues e with
          | none => none
          | some es =>
            if heavy then match scanRows s r1 with
              | (rows, rest) => some (⟨s, labels.length, es, [], rows⟩, rest)
            else match r1 with
              | [] => none
              | c :: r2 => match scanValues c with
                | none => none
                | some cu => match scanRows s r2 with
                  | (rows, rest) => some (⟨s, labels.length, es, cu, rows⟩, rest)
        else none
    | [] => none
  | _ => none

/-- The tables; the first argument bounds their number. -/
def scanTables (heavy : Bool) : ℕ → List Str → Option (List DBlock)
  | _, [] => some []
  | 0, _ :: _ => none
  | n + 1, l :: ls =>
    if (splitWs l).isEmpty then some []
    else match scanBlock heavy (l :: ls) with
      | none => none
      | some (b, rest) =>
        if b.ok then match scanTables heavy n rest with
          | none => none
          | some bs => some (b :: bs)
        else none

/-! ### Configuration and energies -/

/-- A number in parentheses and the rest. -/
def scanParen : Str → Option (ℕ × Str)
  | '(' :: s => match s.dropWhile Char.isDigit with
    | ')' :: r => some (decDigits (s.takeWhile Char.isDigit), r)
    | _ => none
  | _ => none

/-- Number of a shell. -/
def shellOf (c : Char) : Option ℕ :=
  if c = 'K' then some 1 else if c = 'L' then some 2 else if c = 'M' then some 3
  else if c = 'N' then some 4 else none

/-- Items of a configuration; the first argument bounds their number. -/
def scanItems : ℕ → Str → Option (List CfgItem)
  | _, [] => some []
  | 0, _ :: _ => none
  | n + 1, c :: s => match shellOf c with
    | some k => match scanParen s with
      | some (m, r) => (scanItems n r).map (CfgItem.shell k (some m) :: ·)
      | none => (scanItems n s).map (CfgItem.shell k none :: ·)
    | none => match s with
      | l :: s' => match subOf [l] with
        | some sub => match scanParen s' with
          | some (m, r) => (scanItems n r).map (CfgItem.orb ⟨c.toNat - 48, sub⟩ m :: ·)
          | none => none
        | none => none
      | [] => none

/-- The abbreviation for a noble gas. -/
def scanCore (heavy : Bool) (cfg : Str) : Option (Core × Str) :=
  if heavy then
    if List.isPrefixOf (Core.text .xe) cfg then some (.xe, cfg.drop 4)
    else if List.isPrefixOf (Core.text .rn) cfg then some (.rn, cfg.drop 4)
    else none
  else some (.all, cfg)

/-- The first line. -/
def scanConfig (heavy : Bool) (line : Str) : Option (Core × List CfgItem) :=
  match splitWs line with
  | _ :: w :: _ =>
    let cfg := w.filter (· ≠ ',')
    match scanCore heavy cfg with
    | none => none
    | some (core, rest) => match scanItems rest.length rest with
      | none => none
      | some items => if cfg == core.text ++ cfgText items then some (core, items) else none
  | _ => none

/-- The line with the energy. -/
def scanEnergy (line : Str) : Option Dec :=
  match line.dropWhile isSpace with
  | 'E' :: s => match s.dropWhile isSpace with
    | '=' :: b => if b.contains '=' then none else decOf b
    | _ => none
  | _ => none

/-- Text without digits, a decimal number with the character in front of it, the rest. -/
def scanNumber (s : Str) : Option (Str × Str × Str) :=
  let p := s.takeWhile fun c => !c.isDigit
  let r := s.dropWhile fun c => !c.isDigit
  match r.dropWhile Char.isDigit with
  | '.' :: r' =>
    let c := p.getLastD 'x'
    let w := c :: (r.takeWhile Char.isDigit ++ '.' :: r'.takeWhile Char.isDigit)
    if (c == '=' || c == ' ' || c == '-') && !(r.takeWhile Char.isDigit).isEmpty &&
        !(r'.takeWhile Char.isDigit).isEmpty && s == p.dropLast ++ w ++ r'.dropWhile Char.isDigit then
      some (p.dropLast, w, r'.dropWhile Char.isDigit)
    else none
  | _ => none

/-- The line with kinetic and potential energy. -/
def scanKinetic (line : Str) : Option (Dec × Dec) :=
  match scanNumber line with
  | none => none
  | some (_, w0, r0) => match scanNumber r0 with
    | none => none
    | some (_, w1, r1) => match scanNumber r1 with
      | none => none
      | some (_, _, r2) =>
        if r2.all fun c => !c.isDigit then
          match decOf w0 with
          | none => none
          | some t => match decOf w1 with
            | none => none
            | some v => some (t, v)
        else none

/-! ### The file -/

/-- No words. -/
def isBlank (l : Str) : Bool := (splitWs l).isEmpty

/-- A title: not blank, no table begins. -/
def isTitle (l : Str) : Bool := !isBlank l && !isHeader l

/-- Energies and tables. -/
def scanBody (heavy : Bool) (core : Core) (items : List CfgItem) (lines : List Str) : Option DFile :=
  match lines with
  | el :: kl :: rest => match scanEnergy el with
    | none => none
    | some e => match scanKinetic kl with
      | none => none
      | some (t, v) =>
        match scanTables heavy rest.length ((rest.dropWhile isBlank).dropWhile isTitle) with
        | none => none
        | some bs => some ⟨core, items, e, t, v, bs⟩
  | _ => none

/-- A file in the layout of the heavy elements or of the others. -/
def scanFile (heavy : Bool) (lines : List Str) : Option DFile :=
  match lines with
  | [] => none
  | l0 :: rest => match scanConfig heavy l0 with
    | none => none
    | some (core, items) =>
      let r := rest.dropWhile isBlank
      if heavy then
        if decide (6 ≤ r.length) then scanBody heavy core items (r.drop 6) else none
      else scanBody heavy core items r

end
end BFit
