import Verif.Model.Fits

/-! The results of fits in the files `bfit/data/kl_fpi_results.npz` and `kl_slsqp_results.npz`, and their use as
documented in README.md:101-117. -/

namespace BFit

noncomputable section

/-- The value of the double with the 64 bits `w` (IEEE 754 binary64). -/
def f64 (w : ℕ) : XR :=
  let s : ℝ := if w / 2 ^ 63 % 2 = 1 then -1 else 1
  let E : ℕ := w / 2 ^ 52 % 2048
  let M : ℕ := w % 2 ^ 52
  if E = 2047 then
    if M = 0 then (if w / 2 ^ 63 % 2 = 1 then XR.ninf else XR.pinf) else XR.nan
  else if E = 0 then XR.fin (s * M * 2 ^ (-1074 : ℤ))
  else XR.fin (s * ((2 ^ 52 + M : ℕ) : ℝ) * 2 ^ ((E : ℤ) - 1075))

/-- Bytes of a text. -/
def asciiBytes (s : Str) : List ℕ := s.map Char.toNat

/-- The first 128 bytes of a `.npy` file (format 1.0) with a short description. -/
def npyHead (descr shape : Str) : List ℕ :=
  let text := asciiBytes ("{'descr': '".toList ++ descr ++ "', 'fortran_order': False, 'shape': ".toList ++ shape ++
    ", }".toList)
  [147, 78, 85, 77, 80, 89, 1, 0, 118, 0] ++ text ++ List.replicate (117 - text.length) 32 ++ [10]

/-- The number with these bytes, the lowest first. -/
def ofBytes (b : List ℕ) : ℕ := b.foldr (fun d n => d + 256 * n) 0

/-- Numbers of eight bytes. -/
def words : List ℕ → List ℕ
  | a :: b :: c :: d :: e :: f :: g :: h :: t => ofBytes [a, b, c, d, e, f, g, h] :: words t
  | _ => []

/-- An array in a `.npy` file: an integer without axes or a list of doubles. -/
inductive NpyVal where
  | scalar (n : ℤ)
  | array (l : List XR)

/-- Reading of a `.npy` file by `np.load` (called in README.md:108).  Simplified: only the two forms of headers that
occur in the two archives, with the number of entries given by the length of the file. -/
def npyRead (b : List ℕ) : Py NpyVal :=
  let body := words (b.drop 128)
  if b.take 128 = npyHead "<f8".toList ("(".toList ++ Nat.toDigits 10 body.length ++ ",)".toList) then
    .ok (.array (body.map f64))
  else if b.take 128 = npyHead "<i8".toList "()".toList then
    match body with
    | [w] => .ok (.scalar (if w < 2 ^ 63 then (w : ℤ) else (w : ℤ) - 2 ^ 64))
    | _ => raise .valueError
  else raise .valueError

/-- `results[key]` for the object that `np.load` returns (README.md:109-112): the name may be given with or without
`.npy`.  Simplified: the archive is given as the list of the names and contents of its members. -/
def npzGet (ms : List (Str × List ℕ)) (key : Str) : Py NpyVal :=
  match ms.find? fun p => p.1 == key with
  | some p => npyRead p.2
  | none => match ms.find? fun p => p.1 == key ++ ".npy".toList with
    | some p => npyRead p.2
    | none => raise .keyError

/-- The values under the four keys and the two arrays that are printed: `exponents[:num_s]` and `exponents[num_s:]`
(README.md:104-117, with `element` for `be`).  Simplified: negative numbers of functions are not distinguished from zero;
other kinds of arrays raise TypeError. -/
def readmeNpz (ms : List (Str × List ℕ)) (element : Str) : Py (FitEntry × List XR × List XR) :=
  match npzGet ms (element ++ "_num_s".toList) with
  | .error e => .error e
  | .ok ns => match npzGet ms (element ++ "_num_p".toList) with
    | .error e => .error e
    | .ok np => match npzGet ms (element ++ "_coeffs".toList) with
      | .error e => .error e
      | .ok cs => match npzGet ms (element ++ "_exps".toList) with
        | .error e => .error e
        | .ok es => match ns, np, cs, es with
          | .scalar s, .scalar p, .array c, .array x =>
            .ok (⟨s.toNat, p.toNat, c, x⟩, x.take s.toNat, x.drop s.toNat)
          | _, _, _, _ => raise .typeError

end
end BFit
