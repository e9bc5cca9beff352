import Verif.Model.Core

/-!
# Text: lines, fields and numbers

What base/arff.go and base/csv.go do with text, and the parts of Go's library they use. A text is a list of characters; invalid UTF-8 is
not modelled.
-/

namespace Golearn

/-- A text, or a part of one. -/
abbrev Text := List Char

/-- `unicode.IsSpace`, which `strings.TrimSpace` and `strings.Fields` use (base/arff.go:133, 161, 230 and 242). -/
def isSpace (c : Char) : Bool :=
  let n := c.toNat
  (9 ≤ n && n ≤ 13) || n == 32 || n == 0x85 || n == 0xA0 || n == 0x1680 || (0x2000 ≤ n && n ≤ 0x200a) || n == 0x2028 || n == 0x2029 ||
    n == 0x202f || n == 0x205f || n == 0x3000

/-- The number of bytes of a text. -/
def byteLen (l : Text) : Nat := (l.map Char.utf8Size).sum

/-- The parts of a text that end with a newline, without it, and the rest unless it is empty. -/
def splitLines : Text → List Text
  | [] => []
  | c :: cs =>
    if c = '\n' then [] :: splitLines cs
    else
      match splitLines cs with
      | [] => [[c]]
      | l :: ls => (c :: l) :: ls

/-- Leave out a carriage return at the end. -/
def dropCR (l : Text) : Text := if l.getLast? = some '\r' then l.dropLast else l

/-- The lines that `bufio.NewScanner` hands over (base/arff.go:87-89, 123-126 and 211-215, base/csv.go:40-46). Its buffer holds 65536 bytes; at a
line that does not fit the scanner stops, and the callers do not ask for its error. -/
def scanLines (text : Text) : List Text :=
  ((splitLines text).takeWhile fun l => decide (byteLen l < 65536)).map dropCR

/-- `strings.TrimSpace`. -/
def trimSpace (l : Text) : Text := ((l.dropWhile isSpace).reverse.dropWhile isSpace).reverse

/-- `strings.Fields`; `cur` holds the characters of the field that was begun, in reverse. -/
def fieldsGo : Text → Text → List Text
  | cur, [] => if cur = [] then [] else [cur.reverse]
  | cur, c :: cs =>
    if isSpace c then (if cur = [] then fieldsGo [] cs else cur.reverse :: fieldsGo [] cs)
    else fieldsGo (c :: cur) cs

/-- `strings.Fields`, as called in base/arff.go:133. -/
def fieldsOf (l : Text) : List Text := fieldsGo [] l

/-- `strings.Split` at a character, as called in base/arff.go:153. -/
def splitAtChar (x : Char) : Text → List Text
  | [] => [[]]
  | c :: cs =>
    if c = x then [] :: splitAtChar x cs
    else
      match splitAtChar x cs with
      | [] => [[c]]
      | l :: ls => (c :: l) :: ls

/-- `strings.Join`, as called in base/arff.go:57 and 68. -/
def joinWith (sep : Text) : List Text → Text
  | [] => []
  | [t] => t
  | t :: ts => t ++ sep ++ joinWith sep ts

/-! ## A line of comma-separated values -/

/-- Where the reader of `encoding/csv` is: at the start of a field, inside a plain field, inside a quoted field, or after a quote inside a quoted
field. -/
inductive CsvMode where
  | start
  | plain (cur : Text)
  | quoted (cur : Text)
  | quote (cur : Text)

/-- The fields of a line, as `encoding/csv` reads it with its default settings: a plain field must not have quotes; a quoted field ends at a
quote that is not doubled, after which there must be a comma or the end. The characters of the current field are held in reverse. -/
def csvGo : CsvMode → Text → Res (List Text)
  | .start, [] => Res.ok [[]]
  | .start, c :: cs =>
    if c = '"' then csvGo (.quoted []) cs
    else if c = ',' then (csvGo .start cs).map ([] :: ·)
    else csvGo (.plain [c]) cs
  | .plain cur, [] => Res.ok [cur.reverse]
  | .plain cur, c :: cs =>
    if c = ',' then (csvGo .start cs).map (cur.reverse :: ·)
    else if c = '"' then Res.err
    else csvGo (.plain (c :: cur)) cs
  | .quoted _, [] => Res.err
  | .quoted cur, c :: cs => if c = '"' then csvGo (.quote cur) cs else csvGo (.quoted (c :: cur)) cs
  | .quote cur, [] => Res.ok [cur.reverse]
  | .quote cur, c :: cs =>
    if c = '"' then csvGo (.quoted ('"' :: cur)) cs
    else if c = ',' then (csvGo .start cs).map (cur.reverse :: ·)
    else Res.err

/-- Reading a text of one line with a new `csv.Reader` until the end (base/arff.go:220-228): at most one record. A carriage return at the end is
left out, and an empty line is skipped. -/
def csvLine (l : Text) : Res (Option (List Text)) :=
  let l := dropCR l
  if l = [] then Res.ok none else (csvGo .start l).map some

/-! ## The precision of numbers -/

/-- A decimal digit, `[0-9]` in base/csv.go:34. -/
def isDigit (c : Char) : Bool := decide ('0' ≤ c) && decide (c ≤ '9')

/-- Where the search for `[0-9]+(.[0-9]+)?` is: outside a match, in its first digits, or in the digits after the character in the middle;
`dot` says whether that is a dot. -/
inductive NumMode where
  | out
  | int
  | frac (dot : Bool) (n : Nat)

/-- The largest number of digits after a dot in the matches of `[0-9]+(.[0-9]+)?`, base/csv.go:34 and 55-64. The dot in the expression stands for
any character. A match `D` or `DcE` is as long as possible; its parts between dots are two if `c` is a dot, and one otherwise. -/
def decimalsGo : NumMode → Text → Nat
  | .out, [] => 0
  | .out, c :: cs => if isDigit c then decimalsGo .int cs else decimalsGo .out cs
  | .int, [] => 0
  | .int, c :: cs =>
    if isDigit c then decimalsGo .int cs
    else if (cs.head?.map isDigit).getD false then decimalsGo (.frac (c == '.') 0) cs
    else decimalsGo .out cs
  | .frac dot n, [] => if dot then n else 0
  | .frac dot n, c :: cs =>
    if isDigit c then decimalsGo (.frac dot (n + 1)) cs
    else max (if dot then n else 0) (decimalsGo .out cs)

/-- The largest number of decimals found in a line. -/
def decimals (l : Text) : Nat := decimalsGo .out l

/-- A line that is not empty and starts with neither `@` nor `%`. -/
def isDataLine (l : Text) : Bool :=
  match l with
  | [] => false
  | c :: _ => c != '@' && c != '%'

/-- `ParseCSVEstimateFilePrecisionFromReader`, base/csv.go:32-69: the first six lines count that are not empty and start with neither `@` nor
`%`. -/
def estimatePrecision (text : Text) : Nat := (((scanLines text).filter isDataLine).take 6).foldl (fun m l => max m (decimals l)) 0

end Golearn
