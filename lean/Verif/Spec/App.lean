import Verif.Spec.Dec
import Verif.Spec.Num
import Verif.Model.App
/-!
# Specifications for addresses and application options
-/
namespace CCGL.Spec

/-- A dotted quad: four numbers from 0 to 255 separated by dots. -/
def IsDottedQuad (s : List Char) : Prop :=
  ∃ a b c d : List Char, s = a ++ '.' :: (b ++ '.' :: (c ++ '.' :: d)) ∧
    (∀ x ∈ [a, b, c, d], x ≠ [] ∧ Digits x ∧ decNum x ≤ 255)

/-- The documented names of the modes, with their long forms. -/
def modeNames : IOMode → List (List Char)
  | .dec => ["DEC".toList, "DECOMPOSE".toList]
  | .com => ["COM".toList, "COMBINE".toList]
  | .maskdec => ["MASK&DEC".toList, "MASKDEC".toList]
  | .mask => ["MASK".toList]
  | .unknown => []

def fmtNames : DataFmt → List (List Char)
  | .sfile => ["FILE".toList, "SFILE".toList]
  | .gfs => ["GFS".toList, "GRIDFS".toList]
  | .unknown => []

/-- The fields of a text separated by `d`; a delimiter at the very end ends the last field instead of starting
an empty one. -/
def Fields (d : Char) (s : List Char) (fs : List (List Char)) : Prop :=
  (∀ f ∈ fs, d ∉ f) ∧
  ((s = [] ∧ fs = []) ∨ (s = join d fs ∧ fs ≠ [] ∧ fs.getLast? ≠ some []) ∨ (s = join d fs ++ [d] ∧ fs ≠ []))

/-- A value text: a number, or nothing (which counts as 0). -/
def ValueText (t : List Char) (v : DVal) : Prop := NumText t v ∨ (t = [] ∧ v = .fin 0)

/-- `key:values`: an integer key of 32 bits and the value texts separated by `|`. -/
def IsEntry (e : List Char) (k : Int) (vts : List (List Char)) : Prop :=
  ∃ kt vt, Fields ':' e [kt, vt] ∧ IsDecInt kt k ∧ -(2^31) ≤ k ∧ k < 2^31 ∧ Fields '|' vt vts

/-- An entry all of whose values are numbers. -/
def GoodEntry (e : List Char) (k : Int) (vs : List DVal) : Prop :=
  ∃ vts, IsEntry e k vts ∧ List.Forall₂ ValueText vts vs

/-- An entry with a malformed number. -/
def BadEntry (e : List Char) : Prop := ∃ k vts, IsEntry e k vts ∧ ∃ t ∈ vts, ¬ ∃ v, ValueText t v

end CCGL.Spec

namespace CCGL.Spec

/-- The text holding the paths: the second one, or the only one. -/
def pathText : List (List Char) → List Char
  | [] => []
  | [s] => s
  | _ :: t :: _ => t

/-- All given files exist and they are not output files. -/
def Existing (ex : List Char → Prop) (tag : List Char) (fs : List (List Char)) : Prop :=
  ¬ SameText tag "OUT".toList ∧ fs ≠ [] ∧ ∀ f ∈ fs, ex f

/-- The format and the paths meant by the arguments of `-in`, `-mask` or `-out` (`none`: refused): existing files are files
whatever the format says; otherwise the format is the named one; a single text that names no format is a file if its first
path contains a slash and else a database name; two texts of which the first is no format are refused. -/
inductive FmtPaths (ex : List Char → Prop) (tag : List Char) : List (List Char) → Option (DataFmt × List (List Char)) → Prop
  | nothing : FmtPaths ex tag [] none
  | existing (strs fs) : strs ≠ [] → Fields ',' (pathText strs) fs → Existing ex tag fs → FmtPaths ex tag strs (some (.sfile, fs))
  | named (s rest fs fmt n) : Fields ',' (pathText (s :: rest)) fs → ¬ Existing ex tag fs → n ∈ fmtNames fmt → SameText s n →
      FmtPaths ex tag (s :: rest) (some (fmt, fs))
  | slash (s f fs) : Fields ',' s (f :: fs) → ¬ Existing ex tag (f :: fs) → (∀ m, ∀ n ∈ fmtNames m, ¬ SameText s n) → '/' ∈ f →
      FmtPaths ex tag [s] (some (.sfile, f :: fs))
  | name (s f fs) : Fields ',' s (f :: fs) → ¬ Existing ex tag (f :: fs) → (∀ m, ∀ n ∈ fmtNames m, ¬ SameText s n) → '/' ∉ f →
      FmtPaths ex tag [s] (some (.gfs, f :: fs))
  | illegal (s t rest fs) : Fields ',' t fs → ¬ Existing ex tag fs → (∀ m, ∀ n ∈ fmtNames m, ¬ SameText s n) →
      FmtPaths ex tag (s :: t :: rest) none

end CCGL.Spec
