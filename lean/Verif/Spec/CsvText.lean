import Verif.Model.CsvText

/-!
# Specification of the text of the CSV files and of the lines on the screen (C132, C133)
-/

namespace Spta

/-- A field that the csv module of python can read: at most 131072 characters, none of them NUL. -/
def Readable (f : Str) : Prop := f.length ≤ 131072 ∧ '\x00' ∉ f

variable {K : Type}

/-- The text of a cell: coordinates and indices in decimal, the mean of a column with two decimals, an error with three,
a series as numpy prints it, a label as it is. -/
inductive CellText (n : NumberText K) : Cell K → Str → Prop
  | coords (c : Point) :
      CellText n (.coords c) ("Point(x=".toList ++ natStr c.x ++ ", y=".toList ++ natStr c.y ++ ")".toList)
  | number (v : Option K) : CellText n (.number v) (n.show2 v)
  | errorValue (v : ErrorVal K) : CellText n (.errorValue v) (n.show3 v)
  | series (s : List (Option K)) : CellText n (.series s) (n.showSeries s)
  | index (i : Nat) : CellText n (.index i) (natStr i)
  | negative (i : Nat) : CellText n (.index (-(i + 1 : Nat))) ('-' :: natStr (i + 1))
  | text (s : Str) : CellText n (.text s) s

/-- The lines on the screen for a row of the CSV: the coordinates first, with the cluster or the label if there is one,
then the forecast, the test series if there is one, and the error. -/
inductive ScreenOf (n : NumberText K) (errorType : Str) : List (Cell K) → List Str → Prop
  | future (c : Point) (v : ErrorVal K) (f : List (Option K)) :
      ScreenOf n errorType [.coords c, .errorValue v, .series f]
        ["Point: Point(x=".toList ++ natStr c.x ++ ", y=".toList ++ natStr c.y ++ ")".toList,
          "Forecast (future):   ".toList ++ n.showSeries f,
          "Error (".toList ++ errorType ++ "): ".toList ++ n.show3 v]
  | inSample (c : Point) (v : ErrorVal K) (f s : List (Option K)) :
      ScreenOf n errorType [.coords c, .errorValue v, .series f, .series s]
        ["Point: Point(x=".toList ++ natStr c.x ++ ", y=".toList ++ natStr c.y ++ ")".toList,
          "Forecast:            ".toList ++ n.showSeries f,
          "Test:                ".toList ++ n.showSeries s,
          "Error (".toList ++ errorType ++ "): ".toList ++ n.show3 v]
  | cluster (c : Point) (i : Nat) (row : List (Cell K)) (first : Str) (rest : List Str) :
      ScreenOf n errorType (.coords c :: row) (first :: rest) →
      ScreenOf n errorType (.coords c :: .index i :: row)
        (("Point: Point(x=".toList ++ natStr c.x ++ ", y=".toList ++ natStr c.y ++ ") (cluster ".toList ++ natStr i ++
          ")".toList) :: rest)
  | label (c : Point) (l : Str) (row : List (Cell K)) (first : Str) (rest : List Str) :
      ScreenOf n errorType (.coords c :: row) (first :: rest) →
      ScreenOf n errorType (.coords c :: .text l :: row)
        (("Point: Point(x=".toList ++ natStr c.x ++ ", y=".toList ++ natStr c.y ++ ") (label ".toList ++ l ++
          ")".toList) :: rest)

end Spta
