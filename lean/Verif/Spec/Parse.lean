import Verif.Spec.Text
import Verif.Spec.Slater

/-! Specification of the inputs of the parsers: the periodic table, electron configurations, the layout of
the Slater files and of the UGBS file. -/

namespace BFit

noncomputable section

/-- Symbols of the elements from hydrogen to lawrencium, in the order of the atomic numbers. -/
def symbols : List Str :=
  ["h", "he", "li", "be", "b", "c", "n", "o", "f", "ne", "na", "mg", "al", "si", "p", "s", "cl", "ar",
    "k", "ca", "sc", "ti", "v", "cr", "mn", "fe", "co", "ni", "cu", "zn", "ga", "ge", "as", "se", "br",
    "kr", "rb", "sr", "y", "zr", "nb", "mo", "tc", "ru", "rh", "pd", "ag", "cd", "in", "sn", "sb", "te",
    "i", "xe", "cs", "ba", "la", "ce", "pr", "nd", "pm", "sm", "eu", "gd", "tb", "dy", "ho", "er", "tm",
    "yb", "lu", "hf", "ta", "w", "re", "os", "ir", "pt", "au", "hg", "tl", "pb", "bi", "po", "at", "rn",
    "fr", "ra", "ac", "th", "pa", "u", "np", "pu", "am", "cm", "bk", "cf", "es", "fm", "md", "no",
    "lr"].map String.toList

/-- `e` is the symbol (in small letters) of the element with atomic number `z`. -/
def HasZ (e : Str) (z : ℕ) : Prop := 1 ≤ z ∧ symbols[z - 1]? = some e

/-- There is anion data for the elements up to iodine apart from those with closed subshells: noble gases
and the groups of beryllium and zinc. -/
def hasAnion (z : ℕ) : Prop := z ≤ 53 ∧ z ∉ [2, 4, 10, 12, 18, 20, 30, 36, 38, 48]

/-- There is cation data from lithium to caesium. -/
def hasCation (z : ℕ) : Prop := 3 ≤ z ∧ z ≤ 55

/-- Elements from caesium on have files in the other layout. -/
def isHeavyZ (z : ℕ) : Prop := 55 ≤ z

/-! ### Electron configurations -/

/-- Letter of a subshell. -/
def Sub.letter : Sub → Char
  | .S => 'S'
  | .P => 'P'
  | .D => 'D'
  | .F => 'F'

/-- Label of an orbital, such as `3D`. -/
def Orb.label (o : Orb) : Str := [Nat.digitChar o.n, o.sub.letter]

/-- Orbitals that occur in atoms: `l < n ≤ 7`. -/
def Orb.valid (o : Orb) : Prop := o.sub.l < o.n ∧ o.n ≤ 7

/-- These orbitals in the order S, P, D, F. -/
def allOrbs : List Orb :=
  [Sub.S, .P, .D, .F].flatMap fun s => (List.range' (s.l + 1) (7 - s.l)).map fun n => ⟨n, s⟩

/-- An item of an electron configuration: a full shell `K`, `L`, `M`, `N` (of number 1 to 4) that may be
followed by its number of electrons, or the number of electrons of one orbital. -/
inductive CfgItem
  | shell (n : ℕ) (count : Option ℕ)
  | orb (o : Orb) (count : ℕ)

/-- Letters of the shells. -/
def shellLetter : ℕ → Char
  | 1 => 'K'
  | 2 => 'L'
  | 3 => 'M'
  | _ => 'N'

/-- A number in parentheses. -/
def paren (k : ℕ) : Str := '(' :: (Nat.toDigits 10 k ++ [')'])

/-- Text of an item: `K`, `K(2)` or `3D(10)`. -/
def CfgItem.text : CfgItem → Str
  | .shell n none => [shellLetter n]
  | .shell n (some k) => shellLetter n :: paren k
  | .orb o k => o.label ++ paren k

/-- Text of a configuration. -/
def cfgText (items : List CfgItem) : Str := items.flatMap CfgItem.text

/-- Valid items; an S or P orbital holds less than ten electrons. -/
def CfgItem.wf : CfgItem → Prop
  | .shell n _ => 1 ≤ n ∧ n ≤ 4
  | .orb o k => o.valid ∧ (o.sub = .S ∨ o.sub = .P → k ≤ 9)

/-- The orbital of an item. -/
def CfgItem.orb? : CfgItem → Option Orb
  | .shell _ _ => none
  | .orb o _ => some o

/-- A well-formed configuration: valid items, no orbital listed twice. -/
def WfConfig (items : List CfgItem) : Prop :=
  (∀ it ∈ items, it.wf) ∧ (items.filterMap CfgItem.orb?).Nodup

open Classical in
/-- Number of electrons in an orbital: the one listed, else `2 (2l + 1)` if its shell is listed as full,
else none. -/
def occSpec (items : List CfgItem) (o : Orb) : ℕ :=
  if h : ∃ k, CfgItem.orb o k ∈ items then h.choose
  else if ∃ c, CfgItem.shell o.n c ∈ items then 2 * (2 * o.sub.l + 1)
  else 0

/-! ### Slater tables -/

/-- A row of a table: number of the Slater function, exponent, one coefficient for each orbital. -/
structure TRow where
  n : ℕ
  z : XR
  cs : List XR

/-- A table: the subshell, the number of its orbitals, their energies and cusps, the rows. -/
structure TBlock where
  sub : Sub
  count : ℕ
  energies : List XR
  cusps : List XR
  rows : List TRow

/-- The orbitals of a table: consecutive ones from the lowest of the subshell on. -/
def TBlock.orbs (b : TBlock) : List Orb := (List.range b.count).map fun i => ⟨b.sub.l + 1 + i, b.sub⟩

/-- Words that are read as the given numbers. -/
def FloatWords (tf : Str → Py XR) (ws : List Str) (vs : List XR) : Prop := ws.map tf = vs.map .ok

/-- A line with a subshell letter (or a bar) between two spaces on each side. -/
def HasPattern (line : Str) : Prop :=
  ∃ a c t, line = a ++ ' ' :: ' ' :: c :: ' ' :: ' ' :: t ∧ c ∈ ['S', 'P', 'D', 'F', '|']

/-- `        S                    1S             2S`. -/
def HeaderLine (b : TBlock) (line : Str) : Prop :=
  Words line ([b.sub.letter] :: b.orbs.map Orb.label) ∧ HasPattern line

/-- `  BASIS/ORB.ENERGY       -4.7326699     -0.3092695`: a word and numbers. -/
def ValuesLine (tf : Str → Py XR) (vs : List XR) (line : Str) : Prop :=
  ∃ w ws, Words line (w :: ws) ∧ FloatWords tf ws vs

/-- `  1S       12.683501     -0.0024917      0.0004442`. -/
def RowLine (tf : Str → Py XR) (s : Sub) (r : TRow) (line : Str) : Prop :=
  ∃ w ws, Words line (Orb.label ⟨r.n, s⟩ :: w :: ws) ∧ tf w = .ok r.z ∧ FloatWords tf ws r.cs

/-- A table that can be printed: valid orbitals, one-digit numbers, rows of the right length. -/
def TBlock.wf (b : TBlock) : Prop :=
  b.sub.l + b.count ≤ 7 ∧ ∀ r ∈ b.rows, r.n ≤ 9 ∧ r.cs.length = b.count

/-- The lines of a table; those of heavy elements have no cusps. -/
def BlockText (heavy : Bool) (tf : Str → Py XR) (b : TBlock) (lines : List Str) : Prop :=
  ∃ h e cl rl, lines = h :: e :: (cl ++ rl) ∧ HeaderLine b h ∧ ValuesLine tf b.energies e ∧
    (if heavy then cl = [] else ∃ c, cl = [c] ∧ ValuesLine tf b.cusps c) ∧
    List.Forall₂ (RowLine tf b.sub) b.rows rl

/-- The lines of several tables, up to the end of the file or a blank line. -/
inductive TablesText (heavy : Bool) (tf : Str → Py XR) : List TBlock → List Str → Prop
  | eof : TablesText heavy tf [] []
  | blank {l : Str} {ls : List Str} (h : Blank l) : TablesText heavy tf [] (l :: ls)
  | cons {b : TBlock} {bs : List TBlock} {ls rest : List Str} (hb : b.wf) (h : BlockText heavy tf b ls)
      (hr : TablesText heavy tf bs rest) : TablesText heavy tf (b :: bs) (ls ++ rest)

/-- The configuration of xenon. -/
def xeItems : List CfgItem :=
  [.shell 1 (some 2), .shell 2 (some 8), .shell 3 (some 18), .orb ⟨4, .S⟩ 2, .orb ⟨4, .P⟩ 6, .orb ⟨5, .S⟩ 2,
    .orb ⟨4, .D⟩ 10, .orb ⟨5, .P⟩ 6]

/-- The configuration of radon. -/
def rnItems : List CfgItem :=
  xeItems ++ [.orb ⟨4, .F⟩ 14, .orb ⟨6, .S⟩ 2, .orb ⟨5, .D⟩ 10, .orb ⟨6, .P⟩ 6]

/-- How a configuration begins: with all orbitals listed or with an abbreviation for a noble gas. -/
inductive Core
  | all
  | xe
  | rn

/-- Text of the abbreviation. -/
def Core.text : Core → Str
  | .all => []
  | .xe => "[XE]".toList
  | .rn => "[RN]".toList

/-- What the abbreviation stands for. -/
def Core.items : Core → List CfgItem
  | .all => []
  | .xe => xeItems
  | .rn => rnItems

/-- `   E =   -14.573023168`: one sign `=`, before it only `E` and white space. -/
def EnergyLine (tf : Str → Py XR) (v : XR) (line : Str) : Prop :=
  ∃ a t b, line = a ++ 'E' :: t ++ '=' :: b ∧ Blank a ∧ Blank t ∧
    '=' ∉ b ∧ tf b = .ok v

/-- A decimal number with the character in front of it: a sign `=`, a space or a minus sign. -/
def NumberText (w : Str) : Prop :=
  ∃ c d d', w = c :: d ++ '.' :: d' ∧ c ∈ ['=', ' ', '-'] ∧ d ≠ [] ∧ d' ≠ [] ∧
    (∀ x ∈ d, x.isDigit = true) ∧ ∀ x ∈ d', x.isDigit = true

/-- Text without digits. -/
def NoDigits (p : Str) : Prop := ∀ x ∈ p, x.isDigit = false

/-- `   T =    14.573023168     V =   -29.146046336     V/T =    -2.000000000`: three decimal numbers
between text without digits. -/
def KineticLine (tf : Str → Py XR) (t v : XR) (line : Str) : Prop :=
  ∃ p0 w0 p1 w1 p2 w2 p3, line = p0 ++ w0 ++ p1 ++ w1 ++ p2 ++ w2 ++ p3 ∧
    NoDigits p0 ∧ NoDigits p1 ∧ NoDigits p2 ∧ NoDigits p3 ∧
    NumberText w0 ∧ NumberText w1 ∧ NumberText w2 ∧ tf w0 = .ok t ∧ tf w1 = .ok v

/-- Contents of a Slater file. -/
structure SFile where
  core : Core
  items : List CfgItem
  energy : XR
  kinetic : XR
  potential : XR
  blocks : List TBlock

/-- The configuration without abbreviation. -/
def SFile.config (f : SFile) : List CfgItem := f.core.items ++ f.items

/-- The orbitals in the order of the tables. -/
def SFile.orbs (f : SFile) : List Orb := f.blocks.flatMap TBlock.orbs

/-- Consistent contents: the configuration is well formed, there are tables, at most one for each
subshell, all with rows, and every orbital in them has electrons. -/
structure SFile.wf (f : SFile) : Prop where
  config : WfConfig f.config
  nonempty : f.blocks ≠ []
  subs : (f.blocks.map TBlock.sub).Nodup
  rows : ∀ b ∈ f.blocks, b.rows ≠ []
  occ : ∀ o ∈ f.orbs, occSpec f.config o ≠ 0

/-- The lines of a Slater file: configuration, blank lines, five lines that are not used and one before
them in the files of heavy elements, energies, blank lines, a title, tables. -/
def FileText (heavy : Bool) (tf : Str → Py XR) (f : SFile) (lines : List Str) : Prop :=
  ∃ l0 name w ws bl ex el kl bl' ti tabs,
    lines = l0 :: (bl ++ (ex ++ (el :: kl :: (bl' ++ (ti ++ tabs))))) ∧
    Words l0 (name :: w :: ws) ∧ w.filter (· ≠ ',') = f.core.text ++ cfgText f.items ∧
    (heavy = true ↔ f.core ≠ .all) ∧ (∀ l ∈ bl, Blank l) ∧
    (if heavy then ex.length = 6 ∧ ¬ Blank (ex.headD []) else ex = []) ∧
    EnergyLine tf f.energy el ∧ KineticLine tf f.kinetic f.potential kl ∧
    (∀ l ∈ bl', Blank l) ∧ (∀ l ∈ ti, ¬ Blank l ∧ ¬ HasPattern l) ∧
    TablesText heavy tf f.blocks tabs

/-- The dictionary made from a file agrees with its contents: orbitals, energies, cusps and occupations in
the order of the tables, exponents and numbers of the Slater functions of each subshell, for each orbital
the column of coefficients printed under it, and no further entries. -/
structure Reads (heavy : Bool) (f : SFile) (A : RawAtom) : Prop where
  configuration : A.configuration = cfgText f.config
  energy : A.energy = f.energy
  kinetic : A.kinetic = f.kinetic
  potential : A.potential = f.potential
  orbitals : A.orbitals = f.orbs.map Orb.label
  occ : A.occ = f.orbs.map fun o => (occSpec f.config o : ℤ)
  energies : A.energies = f.blocks.flatMap TBlock.energies
  cusp : A.cusp = if heavy then [] else f.blocks.flatMap TBlock.cusps
  exps : ∀ b ∈ f.blocks, A.exps [b.sub.letter] = some (b.rows.map TRow.z)
  nums : ∀ b ∈ f.blocks, A.nums [b.sub.letter] = some (b.rows.map fun r => (r.n : ℤ))
  basis : ∀ b ∈ f.blocks, A.basis [b.sub.letter] = some (b.rows.map fun r => Orb.label ⟨r.n, b.sub⟩)
  coeff : ∀ b ∈ f.blocks, ∀ i < b.count,
    A.coeff (Orb.label ⟨b.sub.l + 1 + i, b.sub⟩) = some (b.rows.map fun r => r.cs.getD i 0)
  no_exps : ∀ k, (∀ b ∈ f.blocks, k ≠ [b.sub.letter]) → A.exps k = none ∧ A.nums k = none
  no_coeff : ∀ x, (∀ o ∈ f.orbs, x ≠ o.label) → A.coeff x = none

/-- An item of the UGBS file: an exponent of an element and a shell, or another line. -/
inductive UgbsItem
  | entry (el shell : Str) (z : XR)
  | other

/-- The text of a UGBS file with the given items, as seen by a request for `element`.  An exponent takes
two lines, the first one starting with element and shell, the second one with the number; in the entries of
other elements the number is not the name of the element.  Other lines (comments, blank lines, `BASIS`, `END`) do not start with the
name of the element. -/
inductive UgbsText (low : Str → Str) (tf : Str → Py XR) (element : Str) :
    List UgbsItem → List Str → Prop
  | nil : UgbsText low tf element [] []
  | entry {el shell w : Str} {z : XR} {l1 l2 : Str} {r1 r2 : List Str} {items : List UgbsItem}
      {lines : List Str} (h1 : Words l1 (el :: shell :: r1)) (h2 : Words l2 (w :: r2))
      (hz : tf w = .ok z) (hw : low el = low element ∨ low w ≠ low element)
      (rest : UgbsText low tf element items lines) :
      UgbsText low tf element (.entry el shell z :: items) (l1 :: l2 :: lines)
  | other {l : Str} {items : List UgbsItem} {lines : List Str}
      (h : ∀ w ws, Words l (w :: ws) → low w ≠ low element)
      (rest : UgbsText low tf element items lines) : UgbsText low tf element (.other :: items) (l :: lines)

/-- What follows in a UGBS file cannot be read for `element`: the next line starts with its name, but the shell is
missing or not one of the four, or the line with the number is missing, blank or starts with no number.  The
exception is that of the list, the dictionary or `float`. -/
inductive UgbsFault (low : Str → Str) (tf : Str → Py XR) (element : Str) : List Str → PyErr → Prop
  | noShell {l w : Str} {rest : List Str} (h : Words l [w]) (he : low w = low element) :
      UgbsFault low tf element (l :: rest) .indexError
  | badShell {l w k : Str} {r rest : List Str} (h : Words l (w :: k :: r)) (he : low w = low element)
      (hk : k ∉ ["S".toList, "P".toList, "D".toList, "F".toList]) :
      UgbsFault low tf element (l :: rest) .keyError
  | noLine {l w k : Str} {r : List Str} (h : Words l (w :: k :: r)) (he : low w = low element)
      (hk : k ∈ ["S".toList, "P".toList, "D".toList, "F".toList]) :
      UgbsFault low tf element [l] .indexError
  | blank {l w k l2 : Str} {r rest : List Str} (h : Words l (w :: k :: r)) (he : low w = low element)
      (hk : k ∈ ["S".toList, "P".toList, "D".toList, "F".toList]) (h2 : Blank l2) :
      UgbsFault low tf element (l :: l2 :: rest) .indexError
  | notNumber {l w k l2 v : Str} {r r2 rest : List Str} {e : PyErr} (h : Words l (w :: k :: r))
      (he : low w = low element) (hk : k ∈ ["S".toList, "P".toList, "D".toList, "F".toList])
      (h2 : Words l2 (v :: r2)) (hv : tf v = .error e) : UgbsFault low tf element (l :: l2 :: rest) e

/-- The exponents of an element and a shell in the order of the file. -/
def ugbsOf (low : Str → Str) (element shell : Str) : List UgbsItem → List XR
  | [] => []
  | .other :: items => ugbsOf low element shell items
  | .entry el sh z :: items => open Classical in
    if low el = low element ∧ sh = shell then z :: ugbsOf low element shell items
    else ugbsOf low element shell items

end
end BFit
