import Verif.Base
import Verif.Model.Str
import Verif.Model.Num
/-!
# File names and directories (`src/utils_filesystem.cpp`, the POSIX branches)

The operating system is modelled by a tree of files and directories, without symbolic links, special files or
concurrent changes; names are strings without NUL, path texts are shorter than `PATH_MAX`, `opendir` succeeds on every
existing directory. `deny` are the entries that the operating system refuses to create or remove (permissions).
-/
namespace CCGL.Fs

/-- Names from the root downwards; `[]` is the root directory. -/
abbrev Path := List Str

inductive Kind where
  | file | dir
deriving Repr, DecidableEq

/-- State of the file system: all entries except the root (in the order in which `readdir` delivers them), the current
working directory, the entries that may not be created or removed. -/
structure FS where
  entries : List (Path × Kind)
  cwd : Path
  deny : Path → Bool

/-- What is stored at a path. -/
def FS.kindOf (fs : FS) (p : Path) : Option Kind :=
  if p = [] then some .dir else (fs.entries.find? (fun e => decide (e.1 = p))).map (·.2)

/-- `opendir`/`readdir`: names in a directory, without "." and "..". -/
def FS.names (fs : FS) (p : Path) : List Str :=
  fs.entries.filterMap (fun e => if e.1.dropLast = p then e.1.getLast? else none)

/-- Pieces of a text between the occurrences of a character, empty ones included. -/
def splitSlash (c : Char) : Str → List Str
  | [] => [[]]
  | x :: s => if x = c then [] :: splitSlash c s else
    match splitSlash c s with
    | [] => [[x]]
    | f :: fs => (x :: f) :: fs

/-- The kernel's path walk (no symbolic links): an empty component or "." stays, ".." goes up (the root is its own
parent), every component is looked up in an existing directory. -/
def FS.walk (fs : FS) : Path → List Str → Option Path
  | cur, [] => if (fs.kindOf cur).isSome then some cur else none
  | cur, c :: cs =>
    if fs.kindOf cur ≠ some .dir then none
    else if c = [] ∨ c = ['.'] then fs.walk cur cs
    else if c = ['.', '.'] then fs.walk cur.dropLast cs
    else fs.walk (cur ++ [c]) cs

/-- Path resolution of a text: absolute if it starts with '/', else from the working directory. -/
def FS.resolve (fs : FS) (s : Str) : Option Path :=
  match s with
  | [] => none
  | c :: _ => if c = '/' then fs.walk [] (splitSlash '/' s) else fs.walk fs.cwd (splitSlash '/' s)

/-- The text of an absolute path. -/
def render (p : Path) : Str :=
  match p with
  | [] => ['/']
  | _ => p.flatMap (fun c => '/' :: c)

/-- utils_filesystem.cpp:283-294 `GetAbsolutePath`: `realpath`, or the text itself if that fails. -/
def getAbsolutePath (fs : FS) (s : Str) : Str :=
  match fs.resolve s with
  | some p => render p
  | none => s

/-- utils_filesystem.cpp:23-33 `FileExists` (`access(F_OK)`: also true of directories). -/
def fileExists (fs : FS) (s : Str) : Bool := (fs.resolve s).isSome

/-- utils_filesystem.cpp:35-41 `FilesExist`. -/
def filesExist (fs : FS) (l : List Str) : Bool := if l.isEmpty then false else l.all (fileExists fs)

/-- utils_filesystem.cpp:43-55 `PathExists` (every entry of the model is a directory or a regular file). -/
def pathExists (fs : FS) (s : Str) : Bool := (fs.resolve (getAbsolutePath fs s)).isSome

/-- utils_filesystem.cpp:123-137 `DirectoryExists`. -/
def directoryExists (fs : FS) (s : Str) : Bool :=
  match fs.resolve (getAbsolutePath fs s) with
  | some p => decide (fs.kindOf p = some .dir)
  | none => false

/-- C `remove`: unlinks a file or an empty directory; result and new state. -/
def FS.remove (fs : FS) (s : Str) : Bool × FS :=
  match fs.resolve s with
  | none => (false, fs)
  | some p =>
    if p = [] ∨ fs.deny p = true ∨ (fs.kindOf p = some .dir ∧ fs.names p ≠ []) then (false, fs)
    else (true, { fs with entries := fs.entries.filter (fun e => decide (e.1 ≠ p)) })

/-- `mkdir`: the last name of the text (trailing slashes dropped) is created in an existing directory. -/
def FS.mkdir (fs : FS) (s : Str) : Bool × FS :=
  match s with
  | [] => (false, fs)
  | c :: _ =>
    let cs := splitSlash '/' s
    let cs := (cs.reverse.dropWhile (fun x => x.isEmpty)).reverse
    match cs.getLast? with
    | none => (false, fs)
    | some n =>
      if n = ['.'] ∨ n = ['.', '.'] then (false, fs) else
      match fs.walk (if c = '/' then [] else fs.cwd) cs.dropLast with
      | none => (false, fs)
      | some q =>
        if fs.kindOf q ≠ some .dir ∨ (fs.kindOf (q ++ [n])).isSome ∨ fs.deny (q ++ [n]) = true then (false, fs)
        else (true, { fs with entries := fs.entries ++ [(q ++ [n], .dir)] })

/-- utils_filesystem.cpp:57-63 `DeleteExistedFile` (0 on success, -1 otherwise). -/
def deleteExistedFile (fs : FS) (s : Str) : Int × FS :=
  let abs := getAbsolutePath fs s
  if fileExists fs abs then
    let r := fs.remove abs
    (if r.1 then 0 else -1, r.2)
  else (-1, fs)

/-- utils_filesystem.cpp:139-148 `MakeDirectory`. -/
def makeDirectory (fs : FS) (s : Str) : Bool × FS :=
  let abs := getAbsolutePath fs s
  if directoryExists fs abs then (true, fs) else fs.mkdir abs

/-- `std::string::find_last_of(char)`. -/
def findLastOf (c : Char) : Str → Option Nat
  | [] => none
  | x :: s => match findLastOf c s with
    | some i => some (i + 1)
    | none => if x = c then some 0 else none

/-- utils_filesystem.cpp:296-309 `GetCoreFileName` (`end - start` is unsigned: a dot before the last separator makes the
length wrap around to "the rest of the string"). -/
def getCoreFileName (fs : FS) (s : Str) : Str :=
  let abs := getAbsolutePath fs s
  let start := match findLastOf '/' abs with
    | none => 0
    | some i => i + 1
  let en := match findLastOf '.' abs with
    | none => abs.length
    | some i => i
  substr abs start (if en ≥ start then en - start else abs.length)

/-- utils_filesystem.cpp:311-318 `GetSuffix`. -/
def getSuffix (fs : FS) (s : Str) : Str :=
  let tokens := splitDelim '.' (getAbsolutePath fs s)
  if tokens.length ≥ 2 then tokens.getLast?.getD [] else []

/-- utils_filesystem.cpp:350-359 `GetPathFromFullName`. -/
def getPathFromFullName (fs : FS) (s : Str) : Str :=
  let abs := getAbsolutePath fs s
  if directoryExists fs abs then abs else
  match findLastOf '/' abs with
  | none => []
  | some i => substr abs 0 (i + 1)

/-- utils_filesystem.cpp:361-370 `ConcatFullName` (for an empty directory `length() - 1` wraps to `npos`, which equals the
result of the failing search: no separator is added). -/
def concatFullName (fs : FS) (fdir core suffix : Str) : Str :=
  let p := getAbsolutePath fs fdir
  let p := match findLastOf '/' p with
    | none => if p = [] then p else p ++ ['/']
    | some i => if i + 1 ≠ p.length then p ++ ['/'] else p
  let p := p ++ core
  if suffix ≠ [] then p ++ '.' :: suffix else p

/-- utils_filesystem.cpp:320-326 `ReplaceSuffix`. -/
def replaceSuffix (fs : FS) (s new : Str) : Str :=
  let filedir := getPathFromFullName fs s
  let core := getCoreFileName fs s
  let old := getSuffix fs s
  if filedir = [] ∨ old = [] then [] else filedir ++ core ++ '.' :: new

/-- utils_filesystem.cpp:328-333 `AppendCoreFileName` (text). -/
def appendCoreFileName (fs : FS) (s endstr : Str) (deli : Char) : Str :=
  concatFullName fs (getPathFromFullName fs s) (getCoreFileName fs s ++ deli :: endstr) (getSuffix fs s)

/-- utils_filesystem.cpp:339-344 `PrefixCoreFileName` (text). -/
def prefixCoreFileName (fs : FS) (s prestr : Str) (deli : Char) : Str :=
  concatFullName fs (getPathFromFullName fs s) (prestr ++ deli :: getCoreFileName fs s) (getSuffix fs s)

/-- utils_filesystem.cpp:335-337 `AppendCoreFileName` (integer). -/
def appendCoreFileNameInt (fs : FS) (s : Str) (n : Int) (deli : Char) : Str :=
  appendCoreFileName fs s (intToDec n) deli

/-- utils_filesystem.cpp:346-348 `PrefixCoreFileName` (integer). -/
def prefixCoreFileNameInt (fs : FS) (s : Str) (n : Int) (deli : Char) : Str :=
  prefixCoreFileName fs s (intToDec n) deli

/-- `std::string::find(t) != npos`. -/
def contains (s t : Str) : Bool := match s with
  | [] => t.isEmpty
  | _ :: s' => t.isPrefixOf s || contains s' t

/-- utils_filesystem.cpp:106-108: the test applied to one file name. -/
def findMatches (fs : FS) (expr name : Str) : Bool :=
  let ext := getSuffix fs name
  stringMatchC ext expr || contains expr ext || stringMatchC expr ".*".toList || stringMatchC expr "*.*".toList

/-- utils_filesystem.cpp:65-121 `FindFiles`: the paths appended to the output vector (the return value is always 0). -/
def findFiles (fs : FS) (lpPath expr : Str) : List Str :=
  let abs := getAbsolutePath fs lpPath
  match fs.resolve abs with
  | none => []
  | some p =>
    if fs.kindOf p ≠ some .dir then [] else
    ((fs.names p).filter (fun n => decide (n.head? ≠ some '.') && findMatches fs expr n)).map (fun n => abs ++ '/' :: n)

/-- utils_filesystem.cpp:150-168 `CleanDirectory`. -/
def cleanDirectory (fs : FS) (s : Str) : Bool × FS :=
  let abs := getAbsolutePath fs s
  if directoryExists fs abs then
    let files := findFiles fs abs "*.*".toList
    let r := files.foldl (fun (acc : Nat × FS) f =>
      let x := acc.2.remove f
      (if x.1 then acc.1 else acc.1 + 1, x.2)) (0, fs)
    (decide (r.1 = 0), r.2)
  else makeDirectory fs abs

/-- utils_filesystem.cpp:214-247 `DeleteDirectory` (POSIX): the new state; the result is always `true`. The recursion is
bounded by `n` (the depth of the tree is enough, see `deleteDirectory`); the directory stream is read as of its opening. -/
def deleteDirLoop (sub : Bool) : Nat → FS → Str → FS
  | 0, fs, _ => fs
  | n + 1, fs, s =>
    let abs := getAbsolutePath fs s
    if ¬ directoryExists fs abs then fs else
    match fs.resolve abs with
    | none => fs
    | some p =>
      let fs' := (fs.names p).foldl (fun (f : FS) name =>
        let path := abs ++ '/' :: name
        let f := if fs.kindOf (p ++ [name]) = some .dir ∧ sub = true then deleteDirLoop sub n f path else f
        (f.remove path).2) fs
      (fs'.remove abs).2

/-- utils_filesystem.cpp:170-248 `DeleteDirectory(dirpath, del_subdirs)`. -/
def deleteDirectory (fs : FS) (s : Str) (sub : Bool) : Bool × FS :=
  (true, deleteDirLoop sub ((fs.entries.map (fun e => e.1.length)).sum + 1) fs s)

end CCGL.Fs
