import Verif.Model.Slater

/-!
# Model of `bfit/_slater.py`, `bfit/parse_ugbs.py` and of `SlaterAtoms.__init__`

Strings are lists of characters.  A text file is the list of its lines as `readline` returns them; after
the last one `readline` returns `""`.  The built-in `float` on strings, `str.lower` and `str.isalpha` are
arbitrary functions.  A call that never returns (a loop that reads past the end of the file) is `none`.
-/

namespace BFit

open Classical

noncomputable section

/-- Python strings (the texts of _slater.py:186-252 and parse_ugbs.py:51-56). -/
abbrev Str := List Char

/-! ### Python strings -/

/-- White space of `str.split()` and `str.strip()` (_slater.py:187, 193; parse_ugbs.py:53). -/
def isSpace (c : Char) : Bool :=
  let n := c.toNat
  (9 ≤ n && n ≤ 13) || (28 ≤ n && n ≤ 32) || n = 133 || n = 160 || n = 5760 || (8192 ≤ n && n ≤ 8202) ||
    n = 8232 || n = 8233 || n = 8239 || n = 8287 || n = 12288

/-- `s.lstrip()` (_slater.py:242). -/
def lstrip (s : Str) : Str := s.dropWhile isSpace

/-- `s.strip()` (_slater.py:193, 202, 220, 222; parse_ugbs.py:53). -/
def strip (s : Str) : Str := (lstrip (lstrip s).reverse).reverse

/-- `s.split()` (_slater.py:187, 226-244; parse_ugbs.py:53); `cur` is the current word, reversed. -/
def splitAux : Str → Str → List Str
  | [], cur => if cur = [] then [] else [cur.reverse]
  | c :: s, cur =>
    if isSpace c then (if cur = [] then splitAux s [] else cur.reverse :: splitAux s [])
    else splitAux s (c :: cur)

/-- `s.split()` (_slater.py:187, 226-244; parse_ugbs.py:53). -/
def splitWs (s : Str) : List Str := splitAux s []

/-- `s.index(pat)` (_slater.py:127-128, 171, 174); `none` when `pat in s` is false. -/
def findSub (pat : Str) : Str → Option ℕ
  | [] => if pat = [] then some 0 else none
  | c :: s => if pat.isPrefixOf (c :: s) then some 0 else (findSub pat s).map (· + 1)

/-- `s.split(pat)[1]` (_slater.py:173, 180) when `pat` occurs in `s`: the text between the first two occurrences. -/
def splitSecond (pat s : Str) : Option Str :=
  match findSub pat s with
  | none => none
  | some i =>
    let t := s.drop (i + pat.length)
    match findSub pat t with
    | none => some t
    | some j => some (t.take j)

/-- Digits with single underscores between them, as `int` accepts (_slater.py:133, 135). -/
def validDigits : Str → Bool
  | [] => false
  | [c] => c.isDigit
  | c :: '_' :: s => c.isDigit && validDigits s
  | c :: s => c.isDigit && validDigits s

/-- Value of the decimal digits of a string (`int`, _slater.py:133, 135). -/
def digitsVal (s : Str) : ℕ := (s.filter Char.isDigit).foldl (fun a c => 10 * a + (c.toNat - 48)) 0

/-- `int(s)` (_slater.py:133, 135, 158-164, 272); digits outside ASCII are not modelled. -/
def pyInt (s : Str) : Py ℤ :=
  match strip s with
  | '-' :: u => if validDigits u then .ok (-(digitsVal u : ℤ)) else raise .valueError
  | '+' :: u => if validDigits u then .ok (digitsVal u) else raise .valueError
  | u => if validDigits u then .ok (digitsVal u) else raise .valueError

/-- `l[i]` with a possibly negative index (_slater.py:245-249; parse_ugbs.py:56). -/
def pyGet {α : Type} (l : List α) (i : ℤ) : Py α :=
  let j := if i < 0 then i + l.length else i
  if j < 0 then raise .indexError
  else match l[j.toNat]? with
    | some x => .ok x
    | none => raise .indexError

/-! ### Choice of the file -/

/-- Names of the lists (_slater.py:45-60). -/
def heavyAtoms : List Str :=
  ["cs", "ba", "la", "ce", "pr", "nd", "pm", "sm", "eu", "gd", "tb", "dy", "ho", "er", "tm", "yb", "lu",
    "hf", "ta", "w", "re", "os", "ir", "pt", "au", "hg", "tl", "pb", "bi", "po", "at", "rn", "fr", "ra",
    "ac", "th", "pa", "u", "np", "pu", "am", "cm", "bk", "cf", "es", "fm", "md", "no", "lr"].map
    String.toList

/-- The elements with an anion file (_slater.py:51-54). -/
def anionAtoms : List Str :=
  ["ag", "al", "as", "b", "br", "c", "cl", "co", "cr", "cu", "f", "fe", "ga", "ge", "h", "i", "in", "k",
    "li", "mn", "mo", "n", "na", "nb", "ni", "o", "p", "pd", "rb", "rh", "ru", "s", "sb", "sc", "se",
    "si", "sn", "tc", "te", "ti", "v", "y", "zr"].map String.toList

/-- The elements with a cation file (_slater.py:56-60). -/
def cationAtoms : List Str :=
  ["ag", "al", "ar", "as", "b", "be", "br", "c", "ca", "cd", "cl", "co", "cr", "cs", "cu", "f", "fe",
    "ga", "ge", "i", "in", "k", "kr", "li", "mg", "mn", "mo", "n", "na", "nb", "ne", "ni", "o", "p", "pd",
    "rb", "rh", "ru", "s", "sb", "sc", "se", "si", "sn", "sr", "tc", "te", "ti", "v", "xe", "y", "zn",
    "zr"].map String.toList

/-- `file_path` (_slater.py:63-78), relative to the directory of the package. -/
def slaterPath (low : Str → Str) (element : Str) (anion cation : Bool) : Py Str :=
  if anion then
    if low element ∈ anionAtoms then
      .ok ("/data/anion/".toList ++ low element ++ ".an".toList)
    else raise .valueError
  else if cation then
    if low element ∈ cationAtoms then
      .ok ("/data/cation/".toList ++ low element ++ ".cat".toList)
    else raise .valueError
  else .ok ("/data/neutral/".toList ++ low element ++ ".slater".toList)

/-! ### Electron configurations -/

/-- The list `orbitals` (_slater.py:102-103). -/
def orbLabels : List Str :=
  ["1S", "2S", "3S", "4S", "5S", "6S", "7S", "2P", "3P", "4P", "5P", "6P", "7P", "3D", "4D", "5D", "6D",
    "7D", "4F", "5F", "6F", "7F"].map String.toList

/-- `out[k] = v` (_slater.py:112-124). -/
def setOcc (out : Str → ℤ) (k : String) (v : ℤ) : Str → ℤ := fun x => if x = k.toList then v else out x

/-- The loop over the shells (_slater.py:109-124). -/
def shellOcc (cfg : Str) : Str → ℤ :=
  let o0 : Str → ℤ := fun _ => 0
  let o1 := if 'K' ∈ cfg then setOcc o0 "1S" 2 else o0
  let o2 := if 'L' ∈ cfg then setOcc (setOcc o1 "2S" 2) "2P" 6 else o1
  let o3 := if 'M' ∈ cfg then setOcc (setOcc (setOcc o2 "3S" 2) "3P" 6) "3D" 10 else o2
  if 'N' ∈ cfg then setOcc (setOcc (setOcc (setOcc o3 "4S" 2) "4P" 6) "4D" 10) "4F" 14 else o3

/-- `re.search(orbital + r"\((.*?)\)", cfg).group(1)` (_slater.py:132): the text from the first `orbital(` to the next
parenthesis; there is no line break in a word. -/
def regexGroup (orbital cfg : Str) : Option Str :=
  match findSub (orbital ++ ['(']) cfg with
  | none => none
  | some i =>
    let t := cfg.drop (i + orbital.length + 1)
    if ')' ∈ t then some (t.takeWhile (· ≠ ')')) else none

/-- Number of electrons of the orbital whose label is found at index `i` (_slater.py:131-135). -/
def orbCount (cfg orbital : Str) (i : ℕ) : Py ℤ :=
  if orbital[1]? = some 'D' ∨ orbital[1]? = some 'F' then
    match regexGroup orbital cfg with
    | none => raise .attributeError
    | some g => pyInt g
  else pyInt ((cfg.drop (i + 3)).take 1)

/-- One pass of the loop over the orbitals (_slater.py:126-135). -/
def orbStep (cfg : Str) (out : Str → ℤ) (x : Str) : Py (Str → ℤ) :=
  match findSub x cfg with
  | none => .ok out
  | some i =>
    let orbital := (cfg.drop i).take 2
    match orbCount cfg orbital i with
    | .error e => .error e
    | .ok v => .ok fun k => if k = orbital then v else out k

/-- The loop over the orbitals (_slater.py:126-135). -/
def orbLoop (cfg : Str) : List Str → (Str → ℤ) → Py (Str → ℤ)
  | [], out => .ok out
  | x :: xs, out => match orbStep cfg out x with
    | .error e => .error e
    | .ok out' => orbLoop cfg xs out'

/-- `_get_number_of_electrons_per_orbital` (_slater.py:82-137): the items of the dictionary. -/
def configOcc (cfg : Str) : Py (List (Str × ℤ)) :=
  match orbLoop cfg orbLabels (shellOcc cfg) with
  | .error e => .error e
  | .ok out => .ok ((orbLabels.map fun k => (k, out k)).filter fun p => p.2 ≠ 0)

/-- The configuration of the xenon core (_slater.py:172, 176). -/
def xeCore : Str := "K(2)L(8)M(18)4S(2)4P(6)5S(2)4D(10)5P(6)".toList

/-- The part of the radon core that is added to it (_slater.py:178). -/
def rnExtra : Str := "4F(14)6S(2)5D(10)6P(6)".toList

/-- `_configuration_exact_for_heavy_elements` (_slater.py:168-183). -/
def heavyConfig (cfg : Str) : Py Str :=
  match splitSecond "[XE]".toList cfg with
  | some rest => .ok (xeCore ++ rest)
  | none => match splitSecond "[RN]".toList cfg with
    | some rest => .ok (xeCore ++ rnExtra ++ rest)
    | none => raise .valueError

/-! ### Tables -/

/-- `_get_column` (_slater.py:139-166). -/
def getColumn (o : Str) : Py ℤ :=
  match o with
  | a :: b :: _ =>
    if b = 'S' then (pyInt [a]).map (· + 1)
    else if b = 'P' then pyInt [a]
    else if b = 'D' then (pyInt [a]).map (· - 1)
    else if b = 'F' then (pyInt [a]).map (· - 2)
    else raise .valueError
  | _ => raise .indexError

/-- The variables filled while the tables are read (_slater.py:214-219). -/
structure Tbl where
  orbitals : List Str
  basis : Str → Option (List Str)
  cusp : List XR
  energies : List XR
  exps : Str → Option (List XR)
  coeff : Str → Option (List XR)

/-- A dictionary with empty lists for the four subshells (_slater.py:213, 216; parse_ugbs.py:50). -/
def emptyDict {α : Type} : Str → Option (List α) :=
  fun k => if k = ['S'] ∨ k = ['P'] ∨ k = ['D'] ∨ k = ['F'] then some [] else none

/-- Initial values (_slater.py:214-219). -/
def Tbl.empty : Tbl := ⟨[], emptyDict, [], [], emptyDict, fun _ => none⟩

/-- `d[k] = v` (_slater.py:230, 245-249; parse_ugbs.py:56). -/
def dictSet {α : Type} (d : Str → Option α) (k : Str) (v : α) : Str → Option α :=
  fun x => if x = k then some v else d x

/-- `re.search(r'  [S|P|D|F]  ', line)` (_slater.py:224). -/
def isHeader : Str → Bool
  | ' ' :: ' ' :: c :: ' ' :: ' ' :: s =>
    (c = 'S' || c = '|' || c = 'P' || c = 'D' || c = 'F') || isHeader (' ' :: c :: ' ' :: ' ' :: s)
  | _ :: s => isHeader s
  | [] => false

/-- `re.match(r'\A^\d' + subshell, line.lstrip())` (_slater.py:242).  The subshell is matched literally (it is a word of
the header; special characters of regular expressions in it are not modelled). -/
def isRow (sub line : Str) : Bool :=
  match lstrip line with
  | c :: s => c.isDigit && sub.isPrefixOf s
  | [] => false

/-- `[float(x) for x in words]` (_slater.py:234, 238). -/
def floats (tf : Str → Py XR) (words : List Str) : Py (List XR) := mapPy tf words

/-- The loop over the orbitals of one row (_slater.py:248-249). -/
def rowCoeff (tf : Str → Py XR) (words : List Str) :
    List Str → (Str → Option (List XR)) → Py (Str → Option (List XR))
  | [], d => .ok d
  | x :: xs, d => match d x with
    | none => raise .keyError
    | some l => match getColumn x with
      | .error e => .error e
      | .ok k => match pyGet words k with
        | .error e => .error e
        | .ok w => match tf w with
          | .error e => .error e
          | .ok v => rowCoeff tf words xs (dictSet d x (l ++ [v]))

/-- One row of a table (_slater.py:244-249). -/
def addRow (tf : Str → Py XR) (sub : Str) (orbs : List Str) (line : Str) (t : Tbl) : Py Tbl :=
  let words := splitWs line
  match t.exps sub with
  | none => raise .keyError
  | some es => match pyGet words 1 with
    | .error e => .error e
    | .ok w => match tf w with
      | .error e => .error e
      | .ok z => match t.basis sub with
        | none => raise .keyError
        | some bs => match pyGet words 0 with
          | .error e => .error e
          | .ok b => match rowCoeff tf words orbs t.coeff with
            | .error e => .error e
            | .ok d => .ok { t with exps := dictSet t.exps sub (es ++ [z]),
                                    basis := dictSet t.basis sub (bs ++ [b]), coeff := d }

/-- Position in the loop over the lines (_slater.py:222-252). -/
inductive Mode
  | scan
  | energy (sub : Str) (orbs : List Str)
  | cusp (sub : Str) (orbs : List Str)
  | rows (sub : Str) (orbs : List Str)

/-- The variables after a header line (_slater.py:227-231). -/
def Tbl.header (t : Tbl) (orbs : List Str) : Tbl :=
  { t with orbitals := t.orbitals ++ orbs,
           coeff := orbs.foldl (fun d x => dictSet d x []) t.coeff }

/-- The nested loops over the lines (_slater.py:224-252), as one pass with the position in the program
as state.  The list holds the current line and those not yet read.  After the end of the file the
current line is `""`, which adds nothing and ends the loops. -/
def tableLoop (heavy : Bool) (tf : Str → Py XR) : List Str → Mode → Tbl → Py Tbl
  | [], _, t => .ok t
  | line :: rest, .energy sub orbs, t => match floats tf (splitWs line).tail with
    | .error e => .error e
    | .ok vs => tableLoop heavy tf rest (if heavy then .rows sub orbs else .cusp sub orbs)
        { t with energies := t.energies ++ vs }
  | line :: rest, .cusp sub orbs, t => match floats tf (splitWs line).tail with
    | .error e => .error e
    | .ok vs => tableLoop heavy tf rest (.rows sub orbs) { t with cusp := t.cusp ++ vs }
  | line :: rest, .scan, t =>
    if splitWs line = [] then .ok t
    else if isHeader line then
      tableLoop heavy tf rest (.energy ((splitWs line).headD []) (splitWs line).tail)
        (t.header (splitWs line).tail)
    else tableLoop heavy tf rest .scan t
  | line :: rest, .rows sub orbs, t =>
    if isRow sub line then
      match addRow tf sub orbs line t with
      | .error e => .error e
      | .ok t' => tableLoop heavy tf rest (.rows sub orbs) t'
    else if splitWs line = [] then .ok t
    else if isHeader line then
      tableLoop heavy tf rest (.energy ((splitWs line).headD []) (splitWs line).tail)
        (t.header (splitWs line).tail)
    else tableLoop heavy tf rest .scan t

/-! ### The file -/

/-- The dictionary returned by `load_slater_wfn` (_slater.py:254-274).  Columns are lists. -/
structure RawAtom where
  configuration : Str
  energy : XR
  kinetic : XR
  potential : XR
  orbitals : List Str
  energies : List XR
  cusp : List XR
  basis : Str → Option (List Str)
  exps : Str → Option (List XR)
  coeff : Str → Option (List XR)
  occ : List ℤ
  nums : Str → Option (List ℤ)

/-- Drop the keys with empty lists (_slater.py:262-268, 271-273). -/
def dropEmpty {α : Type} (d : Str → Option (List α)) : Str → Option (List α) :=
  fun k => match d k with
    | some (x :: l) => some (x :: l)
    | _ => none

/-- Next non-blank line and the lines after it; `none`: the loop never ends (_slater.py:193-194,
221-223). -/
def skipBlank : List Str → Option (Str × List Str)
  | [] => none
  | l :: ls => if splitWs l = [] then skipBlank ls else some (l, ls)

/-- Longest run of digits at the front (`\d+`, _slater.py:207) and the rest. -/
def digitRun (s : Str) : Str × Str := (s.takeWhile Char.isDigit, s.dropWhile Char.isDigit)

/-- A match of `[= -]\d+.\d+` (_slater.py:207) at the front of the string, and the rest.  If the digits are followed by
some character and a digit, these belong to the match; otherwise the pattern can match a run of at least
three digits only. -/
def energyMatch (s : Str) : Option (Str × Str) :=
  match s with
  | [] => none
  | c :: s =>
    if c = '=' ∨ c = ' ' ∨ c = '-' then
      let (d, r) := digitRun s
      if d = [] then none
      else match r with
        | x :: r' =>
          let (d', r'') := digitRun r'
          if x ≠ '\n' ∧ d' ≠ [] then some (c :: d ++ x :: d', r'')
          else if 3 ≤ d.length then some (c :: d, r) else none
        | [] => if 3 ≤ d.length then some (c :: d, r) else none
    else none

/-- `re.findall(r"[= -]\d+.\d+", line)` (_slater.py:207); the first argument bounds the number of characters. -/
def energyMatches : ℕ → Str → List Str
  | 0, _ => []
  | _ + 1, [] => []
  | n + 1, c :: s => match energyMatch (c :: s) with
    | some (m, r) => m :: energyMatches n r
    | none => energyMatches n s

/-- `next_line.split("=")`: the first and the second part (_slater.py:201-204). -/
def energyLine (tf : Str → Py XR) (line : Str) : Py XR :=
  if strip (line.takeWhile (· ≠ '=')) ≠ ['E'] then raise .runtimeError
  else match line.dropWhile (· ≠ '=') with
    | [] => raise .indexError
    | _ :: s => tf (s.takeWhile (· ≠ '='))

/-- The line with kinetic and potential energy (_slater.py:207-210). -/
def kineticLine (tf : Str → Py XR) (line : Str) : Py (XR × XR) :=
  match energyMatches line.length line with
  | [a, b, _] => match tf a with
    | .error e => .error e
    | .ok t => match tf b with
      | .error e => .error e
      | .ok v => .ok (t, v)
  | _ => raise .assertionError

/-- `_get_number_of_electrons_per_orbital(configuration)[k]` (_slater.py:269). -/
def occOf (cfg k : Str) : Py ℤ :=
  match configOcc cfg with
  | .error e => .error e
  | .ok d => match d.find? (fun p => p.1 = k) with
    | some p => .ok p.2
    | none => raise .keyError

/-- `int(x[0])` (_slater.py:272). -/
def firstInt (x : Str) : Py ℤ :=
  match x with
  | [] => raise .indexError
  | c :: _ => pyInt [c]

/-- `[int(x[0]) for x in value]` for the value of a key (_slater.py:271-273). -/
def mapKey (d : Str → Option (List Str)) (k : Str) : Py (Option (List ℤ)) :=
  match d k with
  | none => .ok none
  | some l => (mapPy firstInt l).map some

/-- The final dictionary (_slater.py:254-274). -/
def assemble (cfg : Str) (energy : XR) (tv : XR × XR) (t : Tbl) : Py RawAtom :=
  match mapPy (occOf cfg) t.orbitals with
  | .error e => .error e
  | .ok occ => match mapPy (mapKey (dropEmpty t.basis)) [['S'], ['P'], ['D'], ['F']] with
    | .error e => .error e
    | .ok _ => .ok
      { configuration := cfg, energy := energy, kinetic := tv.1, potential := tv.2,
        orbitals := t.orbitals, energies := t.energies, cusp := t.cusp, basis := t.basis,
        exps := dropEmpty t.exps, coeff := dropEmpty t.coeff, occ := occ,
        nums := fun k => match mapKey (dropEmpty t.basis) k with
          | .ok l => l
          | .error _ => none }

/-- The lines of the tables, after the line with the kinetic energy (_slater.py:212-274). -/
def parseTables (heavy : Bool) (tf : Str → Py XR) (cfg : Str) (energy : XR) (tv : XR × XR)
    (lines : List Str) : Option (Py RawAtom) :=
  match skipBlank lines with
  | none => none
  | some (line, rest) => match tableLoop heavy tf (line :: rest) .scan Tbl.empty with
    | .error e => some (.error e)
    | .ok t => some (assemble cfg energy tv t)

/-- Configuration in the first line (_slater.py:186-189). -/
def readConfig (heavy : Bool) (line : Str) : Py Str :=
  match pyGet (splitWs line) 1 with
  | .error e => .error e
  | .ok w =>
    let cfg := w.filter (· ≠ ',')
    if heavy then heavyConfig cfg else .ok cfg

/-- The body of the `with` statement and the result (_slater.py:185-276). -/
def parseSlater (heavy : Bool) (tf : Str → Py XR) (lines : List Str) : Option (Py RawAtom) :=
  match readConfig heavy (lines.headD []) with
  | .error e => some (.error e)
  | .ok cfg => match skipBlank lines.tail with
    | none => none
    | some (l1, rest1) =>
      let line := if heavy then (rest1.drop 5).headD [] else l1
      let rest := if heavy then rest1.drop 6 else rest1
      match energyLine tf line with
      | .error e => some (.error e)
      | .ok energy => match kineticLine tf (rest.headD []) with
        | .error e => some (.error e)
        | .ok tv => parseTables heavy tf cfg energy tv rest.tail

/-- `load_slater_wfn` (_slater.py:32-276) for files `fs`. -/
def loadSlater (low : Str → Str) (tf : Str → Py XR) (fs : Str → Option (List Str)) (element : Str)
    (anion cation : Bool) : Option (Py RawAtom) :=
  match slaterPath low element anion cation with
  | .error e => some (.error e)
  | .ok path => match fs path with
    | none => some (raise .fileNotFoundError)
    | some lines => parseSlater (decide (low element ∈ heavyAtoms)) tf lines

/-- An argument that may or may not be a string (density.py:84; parse_ugbs.py:46). -/
inductive StrArg
  | str (s : Str)
  | other

/-- `SlaterAtoms.__init__` (density.py:68-101). -/
def slaterInit (isAlpha : Str → Bool) (low : Str → Str) (tf : Str → Py XR)
    (fs : Str → Option (List Str)) (element : StrArg) (anion cation : Bool) : Option (Py RawAtom) :=
  match element with
  | .other => some (raise .typeError)
  | .str s =>
    if isAlpha s = false then some (raise .typeError)
    else if anion ∧ cation then some (raise .valueError)
    else loadSlater low tf fs s anion cation

/-! ### UGBS -/

/-- The loop over the lines (parse_ugbs.py:51-56).  When a line is used, `readline` takes the next one
out of the iteration. -/
def ugbsLoop (low : Str → Str) (tf : Str → Py XR) (element : Str) :
    List Str → (Str → Option (List XR)) → Py (Str → Option (List XR))
  | [], out => .ok out
  | [line], out => match splitWs line with
    | [] => .ok out
    | w :: ws =>
      if low w = low element then
        match ws with
        | [] => raise .indexError
        | k :: _ => match out k with
          | none => raise .keyError
          | some _ => raise .indexError
      else .ok out
  | line :: next :: rest, out => match splitWs line with
    | [] => ugbsLoop low tf element (next :: rest) out
    | w :: ws =>
      if low w = low element then
        match ws with
        | [] => raise .indexError
        | k :: _ => match out k with
          | none => raise .keyError
          | some l => match splitWs next with
            | [] => raise .indexError
            | v :: _ => match tf v with
              | .error e => .error e
              | .ok z => ugbsLoop low tf element rest (dictSet out k (l ++ [z]))
      else ugbsLoop low tf element (next :: rest) out

/-- `path_to_function[:-13] + "data/ygbs"` (parse_ugbs.py:46-48). -/
def ugbsPath (modulePath : Str) : Str := modulePath.take (modulePath.length - 13) ++ "data/ygbs".toList

/-- `get_ugbs_exponents` (parse_ugbs.py:30-57) for files `fs`. -/
def ugbsExponents (low : Str → Str) (tf : Str → Py XR) (fs : Str → Option (List Str)) (modulePath : Str)
    (element : StrArg) : Py (Str → Option (List XR)) :=
  match element with
  | .other => raise .assertionError
  | .str s => match fs (ugbsPath modulePath) with
    | none => raise .fileNotFoundError
    | some lines => ugbsLoop low tf s lines emptyDict

end
end BFit
