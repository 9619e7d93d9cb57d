import Verif.Model.Basic

/-!
# Model of the python string operations used by the code

A string is a list of characters.
-/

namespace Spta

/-- Strings. -/
abbrev Str := List Char

/-- The decimal digit `d` (`d < 10`). -/
def digitChar (d : Nat) : Char := Char.ofNat ('0'.toNat + d)

/-- `str(n)` for a natural number. -/
def natStr (n : Nat) : Str :=
  if h : n < 10 then [digitChar n]
  else natStr (n / 10) ++ [digitChar (n % 10)]
  termination_by n
  decreasing_by omega

/-- `str(i)` for an integer. -/
def intStr : Int → Str
  | .ofNat n => natStr n
  | .negSucc n => '-' :: natStr (n + 1)

/-- Value of a decimal digit. -/
def digitVal (c : Char) : Option Nat :=
  if '0'.toNat ≤ c.toNat ∧ c.toNat ≤ '9'.toNat then some (c.toNat - '0'.toNat) else none

/-- The value of a string of decimal digits, continuing from `acc`. -/
def digitsVal (acc : Nat) : Str → Option Nat
  | [] => some acc
  | c :: cs =>
    match digitVal c with
    | some d => digitsVal (10 * acc + d) cs
    | none => none

/-- `int(s)` for a string: an optional sign and at least one digit, ValueError otherwise. (Python also
accepts surrounding blanks, underscores between digits and other kinds of digits; the model rejects
them.) -/
def pyInt (s : Str) : Except PyErr Int :=
  match s with
  | [] => .error .valueError
  | '-' :: c :: cs =>
    match digitsVal 0 (c :: cs) with
    | some n => .ok (-(n : Int))
    | none => .error .valueError
  | '+' :: c :: cs =>
    match digitsVal 0 (c :: cs) with
    | some n => .ok (n : Int)
    | none => .error .valueError
  | c :: cs =>
    match digitsVal 0 (c :: cs) with
    | some n => .ok (n : Int)
    | none => .error .valueError

/-- `s.split(sep)` for a separator of one character: never empty. -/
def pySplit (sep : Char) : Str → List Str
  | [] => [[]]
  | c :: cs =>
    if c = sep then [] :: pySplit sep cs
    else
      match pySplit sep cs with
      | [] => [[c]]
      | w :: ws => (c :: w) :: ws

/-- `sep.join(parts)` -/
def pyJoin (sep : Str) : List Str → Str
  | [] => []
  | [w] => w
  | w :: ws => w ++ sep ++ pyJoin sep ws

/-- `os.path.join(a, b)` -/
def osJoin (a b : Str) : Str :=
  match b with
  | '/' :: _ => b
  | _ => if a = [] ∨ a.getLast? = some '/' then a ++ b else a ++ '/' :: b

/-- `parts[i]`, IndexError when there is no such element. -/
def listAt {α : Type} (l : List α) (i : Nat) : Except PyErr α :=
  match l[i]? with
  | some a => .ok a
  | none => .error .indexError

/-- `l[i]` for an index that may be negative. -/
def listAtInt {A : Type} (l : List A) (i : Int) : Except PyErr A :=
  if 0 ≤ i then listAt l i.toNat
  else if 0 ≤ l.length + i then listAt l (l.length + i).toNat
  else .error .indexError

/-! ### The csv module

`csv.writer`/`csv.reader` with `delimiter=' ', quotechar='|', quoting=QUOTE_MINIMAL` and the defaults
`doublequote=True`, `lineterminator='\r\n'`. Fields contain no line breaks. -/

/-- Does the writer quote the field? -/
def csvNeedsQuotes (f : Str) : Bool := f.any fun c => c = ' ' || c = '|' || c = '\r' || c = '\n'

/-- Doubling of the quote characters. -/
def csvDouble : Str → Str
  | [] => []
  | c :: cs => if c = '|' then '|' :: '|' :: csvDouble cs else c :: csvDouble cs

/-- A field as written. -/
def csvField (f : Str) : Str :=
  if csvNeedsQuotes f then '|' :: csvDouble f ++ ['|'] else f

/-- `writerow(fields)`, without the line terminator (at least two fields). -/
def csvRow (fields : List Str) : Str := pyJoin [' '] (fields.map csvField)

/-- States of the reader. -/
inductive CsvState where
  | startField | inField | inQuoted | quoteInQuoted
  deriving DecidableEq

/-- The reader on one line; `acc` is the field read so far (reversed). A line that ends within quotes
is an error here (python would go on with the next line). -/
def csvRead : CsvState → Str → Str → Except PyErr (List Str)
  | .inQuoted, _, [] => .error .valueError
  | _, acc, [] => .ok [acc.reverse]
  | st, acc, c :: cs =>
    match st with
    | .startField =>
      if c = '|' then csvRead .inQuoted acc cs
      else if c = ' ' then
        match csvRead .startField [] cs with
        | .ok fs => .ok (acc.reverse :: fs)
        | .error e => .error e
      else csvRead .inField (c :: acc) cs
    | .inField =>
      if c = ' ' then
        match csvRead .startField [] cs with
        | .ok fs => .ok (acc.reverse :: fs)
        | .error e => .error e
      else csvRead .inField (c :: acc) cs
    | .inQuoted =>
      if c = '|' then csvRead .quoteInQuoted acc cs else csvRead .inQuoted (c :: acc) cs
    | .quoteInQuoted =>
      if c = '|' then csvRead .inQuoted (c :: acc) cs
      else if c = ' ' then
        match csvRead .startField [] cs with
        | .ok fs => .ok (acc.reverse :: fs)
        | .error e => .error e
      else csvRead .inField (c :: acc) cs

/-- One row of `csv.reader`; an empty line is an empty row. -/
def csvReadRow (line : Str) : Except PyErr (List Str) :=
  match line with
  | [] => .ok []
  | _ => csvRead .startField [] line

end Spta
