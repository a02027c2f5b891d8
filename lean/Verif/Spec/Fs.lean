import Verif.Model.Fs
/-!
# Specification vocabulary for file names and directories
-/
namespace CCGL.Fs.Spec

/-- A name that can occur in a directory. -/
def GoodName (n : List Char) : Prop := n ≠ [] ∧ '/' ∉ n ∧ n ≠ ['.'] ∧ n ≠ ['.', '.']

/-- A sensible file tree: no path twice, names are names, everything lies in a directory. -/
structure WF (fs : FS) : Prop where
  nodup : (fs.entries.map (·.1)).Nodup
  nonroot : ∀ e ∈ fs.entries, e.1 ≠ []
  good : ∀ e ∈ fs.entries, ∀ c ∈ e.1, GoodName c
  parent : ∀ e ∈ fs.entries, fs.kindOf e.1.dropLast = some .dir

/-- `d` is the text "/", "/a/", "/a/b/", ... of a directory path (existing or not). -/
def DirText (p : Path) (d : List Char) : Prop :=
  (∀ c ∈ p, GoodName c) ∧ d = (p.flatMap (fun c => '/' :: c)) ++ ['/']

/-- `q` is `p` or lies below it. -/
def Below (p q : Path) : Prop := p <+: q

/-- A hidden file name. -/
def Hidden (n : List Char) : Prop := n.head? = some '.'

/-- `t` occurs in `s`. -/
def Occurs (t s : List Char) : Prop := ∃ a b, s = a ++ t ++ b

/-- The suffix of a file name (no directory): what follows its last dot; nothing if there is no dot or nothing after it. -/
def SuffixOf (name suf : List Char) : Prop :=
  (∃ core, name = core ++ '.' :: suf ∧ suf ≠ [] ∧ '.' ∉ suf) ∨
  (suf = [] ∧ '.' ∉ name)

/-- `r` is `fs` with nothing changed except that some entries below `p` are gone. -/
structure OnlyBelow (fs r : FS) (p : Path) : Prop where
  wf : WF r
  deny : r.deny = fs.deny
  cwd : r.cwd = fs.cwd
  same : ∀ q, r.kindOf q = fs.kindOf q ∨ (Below p q ∧ r.kindOf q = none)

/-- A file or an empty directory that exists and that the system allows to remove. -/
def Removable (fs : FS) (q : Path) : Prop :=
  (fs.kindOf q).isSome ∧ (∀ n, fs.kindOf (q ++ [n]) = none) ∧ fs.deny q = false

end CCGL.Fs.Spec
