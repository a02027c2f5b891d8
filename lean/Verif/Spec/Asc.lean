import Verif.Spec.Dec
import Verif.Spec.Num
/-!
# Text files and ASCII grids, specified independently of the model
-/
namespace CCGL.Spec

/-- From lines to content lines: trimmed, without empty lines and comments, in order. -/
inductive ContentLines : List (List Char) → List (List Char) → Prop
  | nil : ContentLines [] []
  | skip (l r : List Char) (ls out : List (List Char)) (h : IsTrimmed l r) (hr : r = [] ∨ r.head? = some '#')
      (hs : ContentLines ls out) : ContentLines (l :: ls) out
  | keep (l r : List Char) (ls out : List (List Char)) (h : IsTrimmed l r) (hne : r ≠ []) (hr : r.head? ≠ some '#')
      (hs : ContentLines ls out) : ContentLines (l :: ls) (r :: out)

/-- The content lines of a text (lines end with a line feed or with the text). -/
def TextContent (text : List Char) (out : List (List Char)) : Prop :=
  ∃ ls, ls ≠ [] ∧ (∀ l ∈ ls, '\n' ∉ l) ∧ text = join '\n' ls ∧ ContentLines ls out

/-- The content of a text as words: one list of words per content line. -/
def TextWords (text : List Char) (wss : List (List (List Char))) : Prop :=
  ∃ out, TextContent text out ∧ List.Forall₂ IsWords out wss

/-- What the header lines of an ASCII grid say. -/
structure AscMeta where
  cols : Option Int := none
  rows : Option Int := none
  xll : Option DVal := none
  yll : Option DVal := none
  cellsize : Option DVal := none
  noData : Option DVal := none
  xcor : Bool := false
  ycor : Bool := false

def Int32 (n : Int) : Prop := -(2 ^ 31) ≤ n ∧ n < 2 ^ 31

/-- Well-formed header lines `key value ...` (keys in any letter case, in any order, the last one counts). -/
inductive HeadOf : List (List (List Char)) → AscMeta → Prop
  | nil : HeadOf [] {}
  | cols (hs m k v rest n) (h : HeadOf hs m) (hk : SameText k "NCOLS".toList) (hv : IsDecInt v n) (hn : Int32 n) :
      HeadOf (hs ++ [k :: v :: rest]) { m with cols := some n }
  | rows (hs m k v rest n) (h : HeadOf hs m) (hk : SameText k "NROWS".toList) (hv : IsDecInt v n) (hn : Int32 n) :
      HeadOf (hs ++ [k :: v :: rest]) { m with rows := some n }
  | xll (hs m k v rest x) (h : HeadOf hs m) (hk : SameText k "XLLCENTER".toList) (hv : NumText v x) :
      HeadOf (hs ++ [k :: v :: rest]) { m with xll := some x }
  | xllcor (hs m k v rest x) (h : HeadOf hs m) (hk : SameText k "XLLCORNER".toList) (hv : NumText v x) :
      HeadOf (hs ++ [k :: v :: rest]) { m with xll := some x, xcor := true }
  | yll (hs m k v rest x) (h : HeadOf hs m) (hk : SameText k "YLLCENTER".toList) (hv : NumText v x) :
      HeadOf (hs ++ [k :: v :: rest]) { m with yll := some x }
  | yllcor (hs m k v rest x) (h : HeadOf hs m) (hk : SameText k "YLLCORNER".toList) (hv : NumText v x) :
      HeadOf (hs ++ [k :: v :: rest]) { m with yll := some x, ycor := true }
  | cellsize (hs m k v rest x) (h : HeadOf hs m) (hk : SameText k "CELLSIZE".toList) (hv : NumText v x) :
      HeadOf (hs ++ [k :: v :: rest]) { m with cellsize := some x }
  | noData (hs m k v rest x) (h : HeadOf hs m) (hk : SameText k "NODATA_VALUE".toList) (hv : NumText v x) :
      HeadOf (hs ++ [k :: v :: rest]) { m with noData := some x }

def ascKeys : List (List Char) :=
  ["NCOLS".toList, "NROWS".toList, "XLLCENTER".toList, "XLLCORNER".toList, "YLLCENTER".toList, "YLLCORNER".toList,
    "CELLSIZE".toList, "NODATA_VALUE".toList]

/-- A line of values: its first word is no header key. -/
def DataLine (ws : List (List Char)) : Prop := ∃ k rest, ws = k :: rest ∧ ∀ key ∈ ascKeys, ¬ SameText k key

/-- A line giving the number of rows or columns. -/
def DimLine (ws : List (List Char)) : Prop :=
  ∃ k rest, ws = k :: rest ∧ (SameText k "NCOLS".toList ∨ SameText k "NROWS".toList)

/-- Neither vertical tab nor form feed (which `Trim` does not remove at the end of a line). -/
def NoVtFf (s : List Char) : Prop := ∀ c ∈ s, c.toNat ≠ 11 ∧ c.toNat ≠ 12

end CCGL.Spec
