import Verif.Model.Dec
import Verif.Model.Stats
/-!
# Plain text files and ASCII grids

`LoadPlainTextFile` (utils_filesystem.cpp), `ReadAscFile`, `WriteSingleAsc` (data_raster.hpp) and
`WriteAscHeaders` (data_raster.cpp). A file is the list of its characters, or absent. Creating directories,
messages and I/O errors while writing are not modelled.
-/
namespace CCGL

/-- The loop of utils_filesystem.cpp:383-393 without the line filter: `getline(myfile, line)` until `eof`;
the last call reads what follows the last line feed (possibly nothing). -/
def fileLines (s : Str) : List Str :=
  match _h : (getlineOne '\n' s).2 with
  | none => [(getlineOne '\n' s).1]
  | some r => (getlineOne '\n' s).1 :: fileLines r
termination_by s.length
decreasing_by exact getlineOne_length '\n' s r _h

/-- utils_filesystem.cpp:372-403 `LoadPlainTextFile(filepath, content_strs)`: returned flag and new contents of
the vector (lines are appended to `old`). -/
def loadPlainTextFile (file : Option Str) (old : List Str) : Bool × List Str :=
  match file with
  | none => (false, old)
  | some s => (true, old ++ (fileLines s).filterMap (fun l =>
      let t := trim l
      if !t.isEmpty && t.head? ≠ some '#' then some t else none))

/-! ## Reading -/

/-- `a * b` of two `int`s: overflow is undefined. -/
def mulInt (a b : Int) : Out Int := if -(2 ^ 31) ≤ a * b ∧ a * b < 2 ^ 31 then .ok (a * b) else .ub

/-- `a + b` on `double` values (exact). -/
def DVal.add : DVal → DVal → DVal
  | .fin a, .fin b => .fin (a + b)
  | .nan, _ => .nan
  | _, .nan => .nan
  | .inf a, .inf b => if a = b then .inf a else .nan
  | .inf a, .fin _ => .inf a
  | .fin _, .inf b => .inf b

/-- `0.5 * x`. -/
def DVal.half : DVal → DVal
  | .fin a => .fin (1 / 2 * a)
  | v => v

/-- `x < 0`. -/
def DVal.isNeg : DVal → Bool
  | .fin a => decide (a < 0)
  | .inf b => b
  | .nan => false

/-- utils_math.h:140-143 `FloatEqual(x, MISSINGFLOAT)`; false for infinities and NaN. -/
def DVal.isMissing : DVal → Bool
  | .fin a => floatEqual a (-fltMax)
  | _ => false

/-- The header entries `ReadAscFile` writes into the map (data_raster.hpp:299-306). -/
structure AscHeader where
  rows : Int
  cols : Int
  xll : DVal
  yll : DVal
  cellsize : DVal
  noData : DVal
  layers : Int
  cellsnum : Int
deriving Repr, DecidableEq

/-- Local variables of `ReadAscFile` (data_raster.hpp:222-230) and the output pointer `values`. -/
structure AscState (τ : Type) where
  cols : Int
  rows : Int
  xll : DVal
  yll : DVal
  cellsize : DVal
  noData : DVal
  xcor : Bool
  ycor : Bool
  vals : Ptr τ
  vidx : Nat
deriving Repr, DecidableEq

/-- data_raster.hpp:222-230. -/
def AscState.start {τ : Type} (vals : Ptr τ) : AscState τ :=
  ⟨-1, -1, .fin (-fltMax), .fin (-fltMax), .fin (-1), .fin (-fltMax), false, false, vals, 0⟩

/-- Continue with the next line, or `return false` leaving the pointer `vals` to the caller. -/
inductive AscFlow (τ : Type) where
  | go (s : AscState τ)
  | fail (vals : Ptr τ)
deriving Repr, DecidableEq

variable {τ : Type}

/-- data_raster.hpp:276-289: the values of one data line; `cast` is `static_cast<T>`. `Release1DArray` leaves a
null pointer. -/
def ascTokens (cast : DVal → τ) : AscState τ → List Str → Out (AscFlow τ)
  | s, [] => .ok (.go s)
  | s, t :: ts =>
    if (isDouble t).2 = false then .ok (.fail none)
    else do
      let n ← mulInt s.rows s.cols
      if (s.vidx : Int) = n then .ok (.fail none)
      else do
        let v ← writeAt s.vals s.vidx (cast (isDouble t).1)
        ascTokens cast { s with vals := v, vidx := s.vidx + 1 } ts

/-- data_raster.hpp:271-275: allocation before the first data line. -/
def ascAlloc (cast : DVal → τ) (s : AscState τ) : Out (AscState τ) :=
  match s.vals with
  | some _ => .ok s
  | none => do
    let n ← mulInt s.rows s.cols
    return { s with vals := alloc1 n (cast s.noData) }

/-- The header keys, data_raster.hpp:90-97. -/
def kNcols : Str := "NCOLS".toList
def kNrows : Str := "NROWS".toList
def kXll : Str := "XLLCENTER".toList
def kXllCor : Str := "XLLCORNER".toList
def kYll : Str := "YLLCENTER".toList
def kYllCor : Str := "YLLCORNER".toList
def kCellsize : Str := "CELLSIZE".toList
def kNodata : Str := "NODATA_VALUE".toList

/-- `tokens.size() < 2` / conversion of the second token, data_raster.hpp:237-239 etc.; `none`: `return false`. -/
def ascInt (tokens : List Str) : Option Int :=
  match tokens with
  | _ :: t :: _ => if (isInt t).2 then some (isInt t).1 else none
  | _ => none
def ascDbl (tokens : List Str) : Option DVal :=
  match tokens with
  | _ :: t :: _ => if (isDouble t).2 then some (isDouble t).1 else none
  | _ => none

/-- data_raster.hpp:231-291: one line, given by its tokens. -/
def ascLine (cast : DVal → τ) (s : AscState τ) (tokens : List Str) : Out (AscFlow τ) :=
  match tokens with
  | [] => .ok (.go s)
  | k :: _ =>
    if stringMatch k kNcols then
      match ascInt tokens with
      | some n => .ok (.go { s with cols := n })
      | none => .ok (.fail s.vals)
    else if stringMatch k kNrows then
      match ascInt tokens with
      | some n => .ok (.go { s with rows := n })
      | none => .ok (.fail s.vals)
    else if stringMatch k kXll || stringMatch k kXllCor then
      match ascDbl tokens with
      | some v => .ok (.go { s with xll := v, xcor := s.xcor || stringMatch k kXllCor })
      | none => .ok (.fail s.vals)
    else if stringMatch k kYll || stringMatch k kYllCor then
      match ascDbl tokens with
      | some v => .ok (.go { s with yll := v, ycor := s.ycor || stringMatch k kYllCor })
      | none => .ok (.fail s.vals)
    else if stringMatch k kCellsize then
      match ascDbl tokens with
      | some v => .ok (.go { s with cellsize := v })
      | none => .ok (.fail s.vals)
    else if stringMatch k kNodata then
      match ascDbl tokens with
      | some v => .ok (.go { s with noData := v })
      | none => .ok (.fail s.vals)
    else do
      let s' ← ascAlloc cast s
      ascTokens cast s' tokens

/-- The loop of data_raster.hpp:231-292. -/
def ascLines (cast : DVal → τ) : AscState τ → List Str → Out (AscFlow τ)
  | s, [] => .ok (.go s)
  | s, l :: ls => do
    match ← ascLine cast s (splitSpaces l) with
    | .fail v => .ok (.fail v)
    | .go s' => ascLines cast s' ls

/-- data_raster.hpp:293-308: completeness check and header update. -/
def ascFinish (s : AscState τ) (hdr : AscHeader) : Out (Bool × AscHeader × Ptr τ) :=
  if s.rows < 0 ∨ s.cols < 0 ∨ s.cellsize.isNeg = true ∨ s.xll.isMissing = true ∨ s.yll.isMissing = true then
    .ok (false, hdr, s.vals)
  else do
    let n ← mulInt s.cols s.rows
    return (true,
      { rows := s.rows, cols := s.cols,
        xll := if s.xcor then s.xll.add s.cellsize.half else s.xll,
        yll := if s.ycor then s.yll.add s.cellsize.half else s.yll,
        cellsize := s.cellsize, noData := s.noData, layers := 1, cellsnum := n }, s.vals)

/-- data_raster.hpp:214-308 `ReadAscFile(filename, header, values)`: returned flag, header and values. -/
def readAsc (cast : DVal → τ) (file : Option Str) (hdr : AscHeader) (vals : Ptr τ) :
    Out (Bool × AscHeader × Ptr τ) :=
  let c := loadPlainTextFile file []
  if c.1 = false then .ok (false, hdr, vals)
  else if c.2.length < 7 then .ok (false, hdr, vals)
  else do
    match ← ascLines cast (.start vals) c.2 with
    | .fail v => .ok (false, hdr, v)
    | .go s => ascFinish s hdr

/-! ## Writing -/

def nl : Str := ['\n']

/-- data_raster.cpp:189-207 `WriteAscHeaders` (the file is deleted first, so this is its whole text). -/
def ascHeaderText (h : Header) : Str :=
  kNcols ++ [' '] ++ intToDec h.cols ++ nl ++
  (kNrows ++ [' '] ++ intToDec h.rows ++ nl) ++
  (kXll ++ [' '] ++ fmtG h.xll ++ nl) ++
  (kYll ++ [' '] ++ fmtG h.yll ++ nl) ++
  (kCellsize ++ [' '] ++ fmtG h.cellsize ++ nl) ++
  (kNodata ++ [' '] ++ fmtG h.noData ++ nl)

/-- data_raster.hpp:341-344: one row; `pr` is `raster_file << setprecision(6) << v`. -/
def ascRowText (pr : τ → Str) (vs : List τ) : Str := vs.flatMap (fun v => pr v ++ [' ']) ++ nl

/-- The values `values[i * cols + j]`, `j < cols`, of data_raster.hpp:342-343. -/
def ascRow (vals : Ptr τ) (cols : Int) (i : Nat) : Out (List τ) :=
  (List.range cols.toNat).mapM (fun (j : Nat) => readAt vals (i * cols + j))

/-- data_raster.hpp:325-350 `WriteSingleAsc(filename, header, values)`: the text of the file. -/
def writeAsc (pr : τ → Str) (h : Header) (vals : Ptr τ) : Out Str := do
  let rows ← (List.range h.rows.toNat).mapM (fun (i : Nat) => do
    let vs ← ascRow vals h.cols i
    return ascRowText pr vs)
  return ascHeaderText h ++ rows.flatten ++ nl

end CCGL
