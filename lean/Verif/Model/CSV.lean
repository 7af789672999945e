import Verif.Model.Text

/-! # CSV files of matrices and vectors (`LinearAlgebra/matrix.cpp`, `LinearAlgebra/vector.cpp`)

A file is its content; `none` is a file that does not exist.  A file that cannot be opened for
another reason, and a failing write, are not modelled. -/

namespace Rodeo

open Text

variable {K : Type} [Field K] [LinearOrder K] [IsStrictOrderedRing K] [FloorRing K]

namespace Mat

/-- The header loop of `saveAsCSV` (matrix.cpp 960-966). -/
def headerLine (header : List Str) : Res Str := do
  let s ← forRange header.length (fun i s => do
    let h ← rawAt header i
    .ok (s ++ h ++ (if i < header.length - 1 then [','] else []))) []
  .ok (s ++ ['\n'])

/-- The data loops of `saveAsCSV` (matrix.cpp 970-978), appending to what is already written. -/
def dataLines (A : Mat K) (precision : Nat) (s : Str) : Res Str :=
  forRange A.nrows (fun row s => do
    let s1 ← forRange A.ncols (fun col s => do
      let v ← rawAt A.buf (col * A.nrows + row)
      .ok (s ++ fixedStr precision v ++ (if col < A.ncols - 1 then [','] else []))) s
    .ok (s1 ++ ['\n'])) s

/-- `mat::saveAsCSV` (matrix.cpp 945-989): the content of the file after the call, and the outcome.
Opening the file empties it before the header is checked. -/
def saveAsCSV (A : Mat K) (precision : Nat) (header : List Str) : Str × Res Unit :=
  if header ≠ [] ∧ header.length ≠ A.ncols then ([], .error .invalidArgument)
  else
    let r : Res Str := do
      let h ← if header = [] then .ok [] else headerLine header
      dataLines A precision h
    match r with
    | .ok s => (s, .ok ())
    | .error e => ([], .error e)

/-- The rows read by `readFromCSV` (matrix.cpp 1009-1021). -/
def readRows (lines : List Str) : Res (List (List K)) :=
  mapRes (fun line => mapRes stod (pieces ',' line)) lines

/-- `mat::readFromCSV` (matrix.cpp 993-1045).  After an exception the object may already have the
new sizes and indeterminate entries; the model delivers only the exception. -/
def readFromCSV (content : Option Str) (hasHeader : Bool) : Res (Mat K) :=
  match content with
  | none => .error .runtimeError
  | some text => do
    let lines := pieces '\n' text
    let rows ← readRows (if hasHeader then lines.drop 1 else lines)
    match rows with
    | [] => .error .runtimeError
    | first :: _ => do
      let nrows := rows.length
      let ncols := first.length
      let d ← forRange nrows (fun i d => do
        let row ← rawAt rows i
        if row.length ≠ ncols then .error .runtimeError
        else forRange ncols (fun j d => do
          let v ← rawAt row j
          Mem.wr d (j * nrows + i) v) d) (Mem.alloc (nrows * ncols))
      let l ← Mem.freeze d
      .ok ⟨nrows, ncols, l⟩

end Mat

namespace Vec

/-- The last loop of `vec::appendToCSV` (vector.cpp 681-688): one line. -/
def csvLine (v : List K) (precision : Nat) : Res Str := do
  let s ← forRange v.length (fun i s => do
    let x ← rawAt v i
    .ok (s ++ fixedStr precision x ++ (if i < v.length - 1 then [','] else []))) []
  .ok (s ++ ['\n'])

/-- `vec::appendToCSV` (vector.cpp 649-690): the new content of the file.  The number of columns of
the first line, if there is one, is compared with the size of the vector. -/
def appendToCSV (v : List K) (file : Option Str) (precision : Nat) : Res Str :=
  let old := file.getD []
  match pieces '\n' old with
  | [] => do
    let s ← csvLine v precision
    .ok (old ++ s)
  | first :: _ =>
    if (pieces ',' first).length ≠ v.length then .error .runtimeError
    else do
      let s ← csvLine v precision
      .ok (old ++ s)

/-- `vec::saveToCSV` (vector.cpp 693-706): one number per line in the default format of a stream. -/
def saveToCSV (v : List K) : Res Str :=
  forRange v.length (fun i s => do
    let x ← rawAt v i
    .ok (s ++ generalStr x ++ (if i < v.length - 1 then ['\n'] else []))) []

/-- `vec::readFromCSV` (vector.cpp 708-728).  `ss >> value` is modelled by `stod` on the line; an
incomplete exponent such as `1e`, which `>>` rejects, is accepted by the model. -/
def readFromCSV (file : Option Str) : Res (List K) :=
  match file with
  | none => .error .runtimeError
  | some text =>
    mapRes (fun line =>
      match stod line with
      | .ok v => .ok v
      | .error _ => .error .runtimeError) (pieces '\n' text)

end Vec
end Rodeo
