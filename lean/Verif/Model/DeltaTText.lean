import Verif.Model.DeltaTGen

/-!
# Model of the text that util/get_delta_t reads and writes

`Model/DeltaTGen.lean` models the main loop from parsed rows to pieces of output. Here: the parsing of the text, the
characters written, and the whole script from text to text.

Simplifications: text is a list of characters, of which only ASCII counts as space or digit. What the script has
written before it fails is not part of the outcome. `float` is the exact value of the decimal followed by an arbitrary
function `dbl` (in Python: to the nearest double); `inf` and `nan` are not modelled. A negative value that rounds to
zero is printed here without its sign.
-/

open Verif

namespace Pysolar.DeltaTGen

abbrev Txt := List Char

/-- ASCII characters that `str.strip()` and `\s` treat as space. -/
def isSpace (c : Char) : Bool :=
  c = ' ' || (9 ≤ c.toNat && c.toNat ≤ 13) || (28 ≤ c.toNat && c.toNat ≤ 31)

/-- `s.split("\n")` (util/get_delta_t:35). -/
def splitNl : Txt → List Txt
  | [] => [[]]
  | c :: cs =>
    if c = '\n' then [] :: splitNl cs
    else
      match splitNl cs with
      | [] => [[c]]
      | l :: ls => (c :: l) :: ls

/-- `s.strip()` (util/get_delta_t:36). -/
def strip (s : Txt) : Txt := ((s.dropWhile isSpace).reverse.dropWhile isSpace).reverse

/-- `re.split(r"\s+", s, n)` (util/get_delta_t:38); here also `n = 0` means no split. -/
def splitWs : ℕ → Txt → List Txt
  | 0, s => [s]
  | n + 1, s =>
    match s.dropWhile fun c => !isSpace c with
    | [] => [s]
    | c :: cs => (s.takeWhile fun c => !isSpace c) :: splitWs n ((c :: cs).dropWhile isSpace)

/-- Decimal digits with single underscores between them, after the value `acc`; `d` says whether the previous
character was a digit. -/
def pyNat (d : Bool) (acc : ℕ) : Txt → Option ℕ
  | [] => if d then some acc else none
  | c :: cs =>
    if c.isDigit then pyNat true (10 * acc + (c.toNat - 48)) cs
    else if c = '_' ∧ d then pyNat false acc cs
    else none

/-- A sign and the rest. -/
def pySign : Txt → Bool × Txt
  | '-' :: cs => (true, cs)
  | '+' :: cs => (false, cs)
  | cs => (false, cs)

/-- `int(s)`. -/
def pyInt (s : Txt) : Py ℤ :=
  let (neg, cs) := pySign (strip s)
  match pyNat false 0 cs with
  | some n => .ok (if neg then -n else n)
  | none => .error .valueError

/-- Integer and fractional digits of a number, either of which may be missing, and the number of the latter. -/
def pyMantissa (s : Txt) : Option ℚ :=
  let ip := s.takeWhile (· ≠ '.')
  match s.dropWhile (· ≠ '.') with
  | [] => (pyNat false 0 ip).map (↑)
  | _ :: fp =>
    let digits := fp.filter (· ≠ '_')
    match ip, fp with
    | [], [] => none
    | [], _ => (pyNat false 0 fp).map fun n => n / 10 ^ digits.length
    | _, [] => (pyNat false 0 ip).map (↑)
    | _, _ => do return (← pyNat false 0 ip) + (← pyNat false 0 fp) / 10 ^ digits.length

/-- The value of the decimal `s`. -/
def pyDecimal (s : Txt) : Option ℚ :=
  let isE : Char → Bool := fun c => c = 'e' || c = 'E'
  let m := s.takeWhile fun c => !isE c
  match s.dropWhile fun c => !isE c with
  | [] => pyMantissa m
  | _ :: ex =>
    let (neg, cs) := pySign ex
    do
      let q ← pyMantissa m
      let n ← pyNat false 0 cs
      return if neg then q / 10 ^ n else q * 10 ^ n

/-- `float(s)`. -/
def pyFloat (dbl : ℚ → ℚ) (s : Txt) : Py ℚ :=
  let (neg, cs) := pySign (strip s)
  match pyDecimal cs with
  | some q => .ok (dbl (if neg then -q else q))
  | none =>
    if cs.map Char.toLower ∈ ["inf".toList, "infinity".toList, "nan".toList] then .error .unmodelled
    else .error .valueError

/-- util/get_delta_t:36-39: what one line yields, if anything. Too few fields: the conversions or the unpacking raise
`ValueError`. -/
def parseLine (dbl : ℚ → ℚ) (line : Txt) : Py (Option Entry) :=
  let line := strip line
  if line.length ≠ 0 then
    match splitWs 3 line with
    | [y, m, d, x] => do
      let year ← pyInt y
      let month ← pyInt m
      let day ← pyInt d
      let dt ← pyFloat dbl x
      return some ⟨year, month, day, dt⟩
    | _ => .error .valueError
  else .ok none

/-- util/get_delta_t:34-42 `parse_data`: the entries yielded, and the exception that ends them, if any. -/
def parseLines (dbl : ℚ → ℚ) : List Txt → List Entry × Option PyErr
  | [] => ([], none)
  | l :: ls =>
    match parseLine dbl l with
    | .error e => ([], some e)
    | .ok none => parseLines dbl ls
    | .ok (some en) => (en :: (parseLines dbl ls).1, (parseLines dbl ls).2)

/-- The decimal digits of a natural number. -/
def showNat (n : ℕ) : Txt := if n < 10 then [Nat.digitChar n] else showNat (n / 10) ++ [Nat.digitChar (n % 10)]

/-- `"%d" % n`. -/
def showInt (n : ℤ) : Txt := if n < 0 then '-' :: showNat n.natAbs else showNat n.natAbs

/-- The last four digits of `n`, padded with zeros. -/
def show4 (n : ℕ) : Txt :=
  [Nat.digitChar (n / 1000 % 10), Nat.digitChar (n / 100 % 10), Nat.digitChar (n / 10 % 10), Nat.digitChar (n % 10)]

/-- `"%.4f" % v` for a value already rounded to four decimals (see `fmt4`). -/
def showFix (v : ℚ) : Txt :=
  let k := Rat.floor (v * 10000)
  (if k < 0 then ['-'] else []) ++ showNat (k.natAbs / 10000) ++ '.' :: show4 (k.natAbs % 10000)

/-- The text of each piece of output (util/get_delta_t:54-80). -/
def render : Token → Txt
  | .baseYear y => "# table generated by util/get_delta_t script\ndelta_t_base_year = ".toList ++ showInt y ++ ['\n']
  | .baseMonth m => "delta_t_base_month = ".toList ++ showInt m ++ ['\n']
  | .openTable => "delta_t = \\\n  [\n".toList
  | .openRow y => "        [ # ".toList ++ showInt y ++ ['\n']
  | .value v m => "            ".toList ++ showFix v ++ ", # ".toList ++ showInt m ++ ['\n']
  | .closeRow => "        ],\n".toList
  | .closeTable => "    ] # delta_t\n".toList

/-- util/get_delta_t: the whole script on the text `data`. The entries are read one by one (`parse_data` is a
generator), so an assertion about an earlier entry fails before a later line is read. -/
def script (dbl : ℚ → ℚ) (data : Txt) : Py Txt :=
  let r := parseLines dbl (splitNl data)
  match generate r.1, r.2 with
  | .error e, _ => .error e
  | .ok _, some e => .error e
  | .ok toks, none => .ok (toks.flatMap render)

end Pysolar.DeltaTGen
