/-!
# Model of `src/utils_string.cpp` / `src/utils_string.h` (string functions)

Strings are lists of characters. Only the `char`/`std::string` overloads are modelled, the `wstring`
overloads have the same text. Platform: Linux, GCC, `CPP_64` (`vint` = 64 bit).
-/
namespace CCGL

abbrev Str := List Char

/-- `std::string::npos`-valued search result: `none` is `npos`.
Models `std::string::find_first_not_of` as used in utils_string.cpp:24,74. -/
def findFirstNotOf (p : Char → Bool) : Str → Option Nat
  | [] => none
  | c :: s => if p c then (findFirstNotOf p s).map (· + 1) else some 0

/-- Models `std::string::find_last_not_of` as used in utils_string.cpp:26,75. -/
def findLastNotOf (p : Char → Bool) : Str → Option Nat
  | [] => none
  | c :: s =>
    match findLastNotOf p s with
    | some i => some (i + 1)
    | none => if p c then none else some 0

/-- Models `std::string::substr(pos, len)` for `pos ≤ size` (the only use made here). -/
def substr (s : Str) (pos len : Nat) : Str := (s.drop pos).take len

/-- The character class `" \n\r\t"` of utils_string.cpp:24,26,74,75. -/
def isTrimChar (c : Char) : Bool := c = ' ' || c = '\n' || c = '\r' || c = '\t'

/-- `isspace` of the C locale: the class skipped by `istream >> string` and by `strtol`/`strtod`. -/
def isSpaceC (c : Char) : Bool :=
  c = ' ' || c = '\t' || c = '\n' || c = Char.ofNat 11 || c = Char.ofNat 12 || c = '\r'

/-- `toupper` of the C locale (used in utils_string.cpp:18). -/
def toUpperC (c : Char) : Char :=
  if 'a'.toNat ≤ c.toNat ∧ c.toNat ≤ 'z'.toNat then Char.ofNat (c.toNat - 32) else c

/-- utils_string.cpp:16-20 `GetUpper`. -/
def getUpper (s : Str) : Str := s.map toUpperC

/-- utils_string.cpp:22-33 `TrimSpaces`. -/
def trimSpaces (s : Str) : Str :=
  match findFirstNotOf isTrimChar s, findLastNotOf isTrimChar s with
  | some b, some e => substr s b (e - b + 1)
  | _, _ => []

/-- utils_string.cpp:70-76 `Trim`. `erase(0, npos)` erases everything; in the second `erase`
`npos + 1` wraps to `0`, erasing everything from index 0. -/
def trim (s : Str) : Str :=
  if s = [] then s
  else
    let s1 := match findFirstNotOf isTrimChar s with
      | some b => s.drop b
      | none => []
    match findLastNotOf isTrimChar s1 with
    | some e => s1.take (e + 1)
    | none => []

/-- One `getline(iss, field, d)` on a non-empty remaining stream: the field and the remaining stream
(`none` when the end was reached without meeting the delimiter). -/
def getlineOne (d : Char) : Str → Str × Option Str
  | [] => ([], none)
  | c :: s => if c = d then ([], some s) else
      let r := getlineOne d s
      (c :: r.1, r.2)

theorem getlineOne_length (d : Char) (s r : Str) (h : (getlineOne d s).2 = some r) :
    r.length < s.length := by
  induction s with
  | nil => simp [getlineOne] at h
  | cons c s ih =>
    simp only [getlineOne] at h
    split at h
    · simp only [Option.some.injEq] at h; subst h; simp
    · have := ih h; simp; omega

/-- utils_string.cpp:35-45 `SplitString(item, delimiter)`: `getline` fails on an exhausted stream, so
an empty text has no field and a delimiter at the very end does not start a field. -/
def splitDelim (d : Char) (s : Str) : List Str :=
  match s with
  | [] => []
  | c :: t =>
    match _h : (getlineOne d (c :: t)).2 with
    | none => [(getlineOne d (c :: t)).1]
    | some r => (getlineOne d (c :: t)).1 :: splitDelim d r
termination_by s.length
decreasing_by exact getlineOne_length d (c :: t) r _h

/-- One `iss >> field` (libstdc++): skips blanks; when the stream is exhausted before a non-blank
character the extraction fails with `eof` set and `field` is left unchanged, otherwise the word is
read and `eof` is set iff the end of the stream was met. Result: field, remaining stream, eof. -/
def extractWord (field : Str) (s : Str) : Str × Str × Bool :=
  let s1 := s.dropWhile isSpaceC
  if s1 = [] then (field, [], true)
  else (s1.takeWhile (fun c => !isSpaceC c), s1.dropWhile (fun c => !isSpaceC c),
        (s1.dropWhile (fun c => !isSpaceC c)).isEmpty)

/-- The loop of utils_string.cpp:53-57; `fuel` bounds the number of iterations, each of which
consumes at least one character (`splitSpaces` provides `length + 1`). -/
def splitSpacesLoop : Nat → Str × Str × Bool → List Str
  | 0, st => [st.1]
  | n + 1, st => if st.2.2 then [st.1] else st.1 :: splitSpacesLoop n (extractWord st.1 st.2.1)

/-- utils_string.cpp:48-59 `SplitString(item)`. -/
def splitSpaces (s : Str) : List Str := splitSpacesLoop (s.length + 1) (extractWord [] s)

/-- utils_string.cpp:65-68 `StringMatch(const string&, const string&)`. -/
def stringMatch (a b : Str) : Bool := getUpper a == getUpper b

/-- `tolower` of the C locale, used by `strcasecmp`. -/
def toLowerC (c : Char) : Char :=
  if 'A'.toNat ≤ c.toNat ∧ c.toNat ≤ 'Z'.toNat then Char.ofNat (c.toNat + 32) else c

/-- The NUL-terminated text a `const char*` obtained by `c_str()` denotes. -/
def cstr (s : Str) : Str := s.takeWhile (fun c => c ≠ Char.ofNat 0)

/-- utils_string.cpp:61-63 `StringMatch(const char*, const char*)`: POSIX `strcasecmp(a,b) == 0`
(case-insensitive comparison in the C locale up to the terminating NUL). -/
def stringMatchC (a b : Str) : Bool := (cstr a).map toLowerC == (cstr b).map toLowerC

/-! ## String maps: `std::map<string,string>` as association lists with unique keys -/

/-- `STRING_MAP`; `std::map` keeps keys unique, the model keeps the entries in insertion order
(iteration order of `std::map` is not observable in the functions modelled). -/
abbrev StrMap := List (Str × Str)

/-- `map::find`. -/
def StrMap.get : StrMap → Str → Option Str
  | [], _ => none
  | e :: m, k => if e.1 = k then some e.2 else StrMap.get m k

/-- `opts[k] = v` for an existing key. -/
def StrMap.assign : StrMap → Str → Str → StrMap
  | [], _, _ => []
  | e :: m, k, v => if e.1 = k then (e.1, v) :: m else e :: StrMap.assign m k v

/-- `map::emplace` / `map::insert`: no effect when the key exists. -/
def StrMap.emplace (m : StrMap) (k v : Str) : StrMap :=
  if (m.get k).isSome then m else m ++ [(k, v)]

/-- utils_string.cpp:94-104 `UpdateStringMap`. -/
def updateStringMap (m : StrMap) (k v : Str) : StrMap :=
  if (m.get k).isSome then m.assign k v else m.emplace k v

/-- utils_string.cpp:78-92 `CopyStringMap(in, out)`: returns the new `out`. -/
def copyStringMap (inp out : StrMap) : StrMap :=
  if inp.isEmpty then out
  else inp.foldl (fun o e => if (o.get e.1).isSome then o.assign e.1 e.2 else o.emplace e.1 e.2) out

end CCGL
