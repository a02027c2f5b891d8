import Verif.Model.Asc
/-!
# Writing an ASCII grid, step by step

`WriteAscHeaders` (data_raster.cpp) and `WriteSingleAsc` (data_raster.hpp) as the sequence of their operations on
the output file, to speak about a program that dies in between. Both streams are opened for appending and the
first is closed before the second is opened. That the bytes handed to a stream reach the file in order, and none
but those, is assumed of the platform; when they do is not.
-/
namespace CCGL

/-- An operation on the output file. -/
inductive AscOp where
  /-- `DeleteExistedFile(filename)` -/
  | delete
  /-- `std::ofstream(name, ios::app | ios::out)`: an absent file is created, a present one is left as it is -/
  | open
  /-- `raster_file << s` -/
  | put (s : Str)
deriving Repr, DecidableEq

/-- Effect of an operation that completes. -/
def AscOp.apply : Option Str → AscOp → Option Str
  | _, .delete => none
  | none, .open => some []
  | some t, .open => some t
  | none, .put _ => none
  | some t, .put s => some (t ++ s)

/-- data_raster.cpp:189-207 `WriteAscHeaders`: its operations in order. -/
def ascHeaderOps (h : Header) : List AscOp :=
  [.delete, .open,
   .put kNcols, .put [' '], .put (intToDec h.cols), .put nl,
   .put kNrows, .put [' '], .put (intToDec h.rows), .put nl,
   .put kXll, .put [' '], .put (fmtG h.xll), .put nl,
   .put kYll, .put [' '], .put (fmtG h.yll), .put nl,
   .put kCellsize, .put [' '], .put (fmtG h.cellsize), .put nl,
   .put kNodata, .put [' '], .put (fmtG h.noData), .put nl]

/-- data_raster.hpp:341-344: one row. -/
def ascRowOps {τ : Type} (pr : τ → Str) (vs : List τ) : List AscOp :=
  vs.flatMap (fun v => [.put (pr v), .put [' ']]) ++ [.put nl]

/-- data_raster.hpp:325-350 `WriteSingleAsc`: its operations on the output file in order. -/
def ascOps {τ : Type} (pr : τ → Str) (h : Header) (vals : Ptr τ) : Out (List AscOp) := do
  let rows ← (List.range h.rows.toNat).mapM (fun (i : Nat) => do
    let vs ← ascRow vals h.cols i
    return ascRowOps pr vs)
  return ascHeaderOps h ++ .open :: rows.flatten ++ [.put nl]

/-- What the file may be when the program (or the machine) stops somewhere in a sequence of operations: between two
of them, or with only a part of an output transferred. -/
inductive Leaves : List AscOp → Option Str → Option Str → Prop
  | stop (ops f) : Leaves ops f f
  | part (s p t ops) (h : p <+: s) : Leaves (.put s :: ops) (some t) (some (t ++ p))
  | next (op ops f g) (h : Leaves ops (op.apply f) g) : Leaves (op :: ops) f g

end CCGL
