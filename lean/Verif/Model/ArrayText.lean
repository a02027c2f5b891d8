import Verif.Model.Asc
/-!
# Arrays in text files (`src/utils_array.cpp`)

The text output functions and the reading templates. A file is the list of its characters, or cannot be opened. A formatted input stream is the text not yet
read and its error flag. Values never assigned are `none`. Simplifications: numbers are printed with the default format of an output stream (`fmtG`,
six significant digits, finite values); memory exhaustion is not modelled; a stream of integers follows `std::num_get` of the C locale.
-/
namespace CCGL
namespace ArrText

variable {τ : Type}

/-- The values `data[0] … data[n-1]`. -/
def cells (data : Ptr τ) (n : Int) : Out (List τ) := (List.range n.toNat).mapM (fun (i : Nat) => readAt data i)

/-- utils_array.cpp:8-14 `Output1DArrayToTxtFile`: the text of the file. -/
def output1D (pr : τ → Str) (n : Int) (data : Ptr τ) : Out Str := do
  let vs ← cells data n
  return vs.flatMap (fun v => pr v ++ ['\n'])

/-- utils_array.cpp:16-25 `Output2DArrayToTxtFile`. -/
def output2D (pr : τ → Str) (rows cols : Int) (data : Ptr (Ptr τ)) : Out Str := do
  let ls ← (List.range rows.toNat).mapM (fun (i : Nat) => do
    let row ← readAt data i
    let vs ← cells row cols
    return vs.flatMap (fun v => pr v ++ ['\t']) ++ ['\n'])
  return ls.flatten

/-! ## Reading -/

/-- A formatted input stream: what is left, and `fail()`. -/
structure In where
  rest : Str
  fail : Bool
deriving DecidableEq

/-- `std::ifstream ifs(filename)`. -/
def openIn : Option Str → In
  | some t => ⟨t, false⟩
  | none => ⟨[], true⟩

/-- `ifs >> word`. -/
def readWord (s : In) (old : Str) : Str × In :=
  if s.fail then (old, s)
  else
    let t := s.rest.dropWhile isSpaceC
    if t = [] then (old, ⟨[], true⟩) else (t.takeWhile (fun c => !isSpaceC c), ⟨t.dropWhile (fun c => !isSpaceC c), false⟩)

/-- `ifs >> i` for an `int`: nothing is assigned if the stream has failed before or has no more characters; a text that is no number gives 0, one out of range the
nearest number, and both set `fail()`. -/
def readInt (s : In) (old : Option Int) : Option Int × In :=
  if s.fail then (old, s)
  else
    let t := s.rest.dropWhile isSpaceC
    if t = [] then (old, ⟨[], true⟩)
    else
      let sg := signPart t
      let ds := sg.2.2.takeWhile isDigitC
      let rest := sg.2.2.dropWhile isDigitC
      if ds = [] then (some 0, ⟨rest, true⟩)
      else
        let v : Int := if sg.1 then -(digitsVal 0 ds : Int) else digitsVal 0 ds
        if v < -(2 ^ 31) then (some (-(2 ^ 31)), ⟨rest, true⟩)
        else if 2 ^ 31 - 1 < v then (some (2 ^ 31 - 1), ⟨rest, true⟩)
        else (some v, ⟨rest, false⟩)

/-- `n` times `ifs >> data[i]`, starting with values not assigned. -/
def readMany (get : In → Option τ → Option τ × In) : Nat → In → List (Option τ) × In
  | 0, s => ([], s)
  | n + 1, s =>
    let x := get s none
    let y := readMany get n x.2
    (x.1 :: y.1, y.2)

/-- utils_array.cpp:27-37 `Read1DArrayFromTxtFile(filename, rows, data)`; `old` is the value of `rows` before. A negative number of values throws. -/
def read1D (get : In → Option τ → Option τ × In) (file : Option Str) (old : Option Int) : Out (Option Int × List (Option τ)) :=
  let w := readWord (openIn file) []
  let r := readInt w.2 old
  match r.1 with
  | none => .ub
  | some rows => if rows < 0 then .exn else .ok (some rows, (readMany get rows.toNat r.2).1)

/-- utils_array.cpp:47-54, 65-72 the loop over the rows; `n` is the local variable. `new T[n + 1]` throws for `n < -1` and has no place for the number of values
for `n = -1`; `n + 1` overflows for the largest `int`. -/
def readRows (get : In → Option τ → Option τ × In) (ofInt : Int → τ) : Nat → In → Option Int → Out (List (List (Option τ)))
  | 0, _, _ => .ok []
  | k + 1, s, n =>
    let x := readInt s n
    match x.1 with
    | none => .ub
    | some n =>
      if n < -1 then .exn
      else if n = -1 ∨ n = 2 ^ 31 - 1 then .ub
      else do
        let y := readMany get n.toNat x.2
        let l ← readRows get ofInt k y.2 (some n)
        return (some (ofInt n) :: y.1) :: l

/-- utils_array.cpp:39-55 `Read2DArrayFromTxtFile`, 57-73 `Read2DArrayFromString` (the text always opens). -/
def read2D (get : In → Option τ → Option τ × In) (ofInt : Int → τ) (file : Option Str) (old : Option Int) :
    Out (Option Int × List (List (Option τ))) :=
  let w := readWord (openIn file) []
  let r := readInt w.2 old
  match r.1 with
  | none => .ub
  | some rows =>
    if rows < 0 then .exn
    else do
      let l ← readRows get ofInt rows.toNat r.2 none
      return (some rows, l)

end ArrText
end CCGL
