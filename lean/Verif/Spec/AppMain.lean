import Verif.Spec.App
import Verif.Spec.Asc
import Verif.Model.AppMain
/-!
# Specification of the settings of `mask_rasterio`
-/
namespace CCGL.Spec
open Main

/-- An option of the command line: it starts with '-' and is no number. -/
def IsOption (a : List Char) : Prop := a.head? = some '-' ∧ ¬ ∃ v, NumText a v

/-- The argument number `i` is the option `name`, followed by the values `vals` (at least one) up to the next option. -/
def OptionAt (args : List (List Char)) (i : Nat) (name : List Char) (vals : List (List Char)) : Prop :=
  ∃ o post, args.drop i = o :: (vals ++ post) ∧ IsOption o ∧ SameText o ('-' :: name) ∧ vals ≠ [] ∧
    (∀ v ∈ vals, ¬ IsOption v) ∧ (∀ o', post.head? = some o' → IsOption o')

/-- The command line gives these values to the option: the first occurrence with values counts. -/
def OnCommandLine (args : List (List Char)) (name : List Char) (vals : List (List Char)) : Prop :=
  ∃ i, OptionAt args i name vals ∧ ∀ j < i, ∀ v, ¬ OptionAt args j name v

/-- A line of the configuration file: the option and at least one value, separated by tabs. -/
def OptionLine (line name : List Char) (vals : List (List Char)) : Prop :=
  ∃ k, Fields '\t' line (k :: vals) ∧ vals ≠ [] ∧ SameText k ('-' :: name)

/-- The lines of the configuration file give these values to the option: the first line counts. -/
def InFile (lines : List (List Char)) (name : List Char) (vals : List (List Char)) : Prop :=
  ∃ i l, lines[i]? = some l ∧ OptionLine l name vals ∧
    ∀ (j : Nat) (l' : List Char), j < i → lines[j]? = some l' → ∀ v, ¬ OptionLine l' name v

/-- The argument number `i` is `-configfile` and the next argument, which does not start with '-', is `p`. -/
def NamesFile (args : List (List Char)) (i : Nat) (p : List Char) : Prop :=
  ∃ o, args[i]? = some o ∧ SameText o "-configfile".toList ∧ args[i + 1]? = some p ∧ p.head? ≠ some '-'

/-- The configuration file is the last one named. -/
def ConfigFile (args : List (List Char)) (p : List Char) : Prop :=
  (∃ i, NamesFile args i p ∧ ∀ j > i, ∀ q, ¬ NamesFile args j q) ∨ (p = [] ∧ ∀ i q, ¬ NamesFile args i q)

/-- The lines of the configuration file (without comments and blank lines); no lines without a file. -/
def FileLines (w : World) (args lines : List (List Char)) : Prop :=
  ∃ p, ConfigFile args p ∧ ((p = [] ∧ lines = []) ∨ (p ≠ [] ∧ ∃ text, w.text p = some text ∧ TextContent text lines))

/-- The values of a setting: those of the command line, else those of the file. -/
def Setting (args lines : List (List Char)) (name : List Char) (vals : List (List Char)) : Prop :=
  OnCommandLine args name vals ∨ ((∀ v, ¬ OnCommandLine args name v) ∧ InFile lines name vals)

/-- The data items: the other lines, with their fields separated by ';'. -/
def Items (lines : List (List Char)) (items : List (List (List Char))) : Prop :=
  List.Forall₂ (fun l item => Fields ';' l item) (lines.filter (fun l => l.head? ≠ some '-')) items

/-- The table of all settings: name (in capitals) to values. -/
abbrev Settings := List Char → Option (List (List Char))

/-- The table says what the command line and the file say. -/
def Says (S : Settings) (args lines : List (List Char)) : Prop :=
  ∀ name vals, ¬ SameText name "configfile".toList → (S (getUpper name) = some vals ↔ Setting args lines name vals)

/-- Two names of one setting: the values of the second name win. -/
def Settings.either (S : Settings) (n n' : List Char) : Option (List (List Char)) :=
  match S n' with
  | some v => some v
  | none => S n

/-- The first value of a setting (`none`: not given). -/
def firstOf (o : Option (List (List Char))) : Option (List Char) := o.map (fun l => l.headD [])

/-- A number given as a value: -9999 if it is missing or no number; an empty value counts as 0. -/
def NumberOf (o : Option (List Char)) (v : DVal) : Prop :=
  match o with
  | none => v = .fin (-9999)
  | some s => ValueText s v ∨ ((¬ ∃ u, ValueText s u) ∧ v = .fin (-9999))

/-- The input of the command line (`-in`, `-input`): format and paths, `none` without any. -/
def InputOf (w : World) (o : Option (List (List Char))) (r : Option (DataFmt × List (List Char))) : Prop :=
  match o with
  | none => r = none
  | some v => ∃ x, FmtPaths (fun s => Fs.fileExists w.fs s = true) "IN".toList v (some x) ∧ r = some x

/-- The output of the command line: format (unknown if it is not given or refused) and path if any. -/
def OutputOf (w : World) (o : Option (List (List Char))) (f : DataFmt) (p : Option (List Char)) : Prop :=
  match o with
  | none => f = .unknown ∧ p = none
  | some v => ∃ r, FmtPaths (fun s => Fs.fileExists w.fs s = true) "OUT".toList v r ∧
      ((r = none ∧ f = .unknown ∧ p = none) ∨ ∃ x, r = some x ∧ f = x.1 ∧ p = x.2.head?)

/-- Whether the database can be used. -/
def MongoOf (w : World) (o : Option (List (List Char))) : Bool :=
  match o with
  | none => false
  | some v => w.mongo (v.take 4) == some true

/-- The output format in force: GFS only with a database; without a known format that of the input. -/
def outFormat (mongo : Bool) (given inFmt : DataFmt) : DataFmt :=
  match given with
  | .sfile => .sfile
  | .gfs => if mongo then .gfs else .sfile
  | .unknown => inFmt

/-- The table given by a text and whether it can be used. -/
def tableOf (o : Option (List Char)) : Bool × KvMap :=
  match o with
  | none => (false, [])
  | some s => parseKeyValues s []

/-- The output type: `double` unless a type is named. -/
def typeOf (t : RDT) : RDT := if t = .unknown then .double else t

def namedType (o : Option (List Char)) : RDT :=
  match o with
  | none => .unknown
  | some s => stringToRdt s

/-- The path used for the output if none is given: the name of the only input with `_masked` appended; for several inputs the first
name, up to its last underscore, with `_masked` appended. -/
def maskedName (fs : Fs.FS) (paths : List (List Char)) : List Char :=
  match paths with
  | [p] => Fs.appendCoreFileName fs p "masked".toList '_'
  | _ =>
    let p := paths.headD []
    let core := Fs.getCoreFileName fs p
    Fs.getPathFromFullName fs p ++ (match Fs.findLastOf '_' core with | none => core | some i => core.take i) ++
      "_masked.".toList ++ Fs.getSuffix fs p

/-- The job described by the command line: only with an input that has paths. -/
def CommandJob (w : World) (S : Settings) (inp : Option (DataFmt × List (List Char))) (of : DataFmt) (op : Option (List Char))
    (j : Option Job) : Prop :=
  InputOf w (S.either "IN".toList "INPUT".toList) inp ∧ OutputOf w (S.either "OUT".toList "OUTPUT".toList) of op ∧
    match inp with
    | none => j = none
    | some (_, []) => j = none
    | some (f, p :: ps) => ∃ d n, NumberOf (firstOf (S.either "DEFAULT".toList "DEFAULTVALUE".toList)) d ∧
        NumberOf (firstOf (S.either "NODATA".toList "NODATAVALUE".toList)) n ∧
        j = some {
          inputs := p :: ps, inFmt := f, out := op.getD (maskedName w.fs (p :: ps))
          outFmt := outFormat (MongoOf w (S.either "MONGO".toList "MONGODB".toList)) of f
          default := d, update := (S.either "NODATA".toList "NODATAVALUE".toList).isSome, nodata := n
          type := typeOf (namedType (firstOf (S "OUTDATATYPE".toList)))
          recls := (tableOf (firstOf (S "RECLASS".toList))).1, table := (tableOf (firstOf (S "RECLASS".toList))).2 }

/-- The mask (`-mask`): format and path, no path if it is not given. -/
def MaskOf (w : World) (o : Option (List (List Char))) (f : DataFmt) (p : List Char) : Prop :=
  match o with
  | none => f = .unknown ∧ p = []
  | some v => ∃ ps, FmtPaths (fun s => Fs.fileExists w.fs s = true) "MASK".toList v (some (f, p :: ps))

/-- The mode: masking unless one is named. -/
def ModeOf (o : Option (List Char)) (m : IOMode) : Prop :=
  match o with
  | none => m = .mask
  | some s => ∃ n ∈ modeNames m, SameText s n

/-- An integer given as a value; `d` if it is missing or no integer of 32 bits. -/
def IntegerOf (o : Option (List Char)) (d v : Int) : Prop :=
  match o with
  | none => v = d
  | some s => (IsDecInt s v ∧ -(2^31) ≤ v ∧ v < 2^31) ∨ ((¬ ∃ u, IsDecInt s u ∧ -(2^31) ≤ u ∧ u < 2^31) ∧ v = d)

/-- At most one of two names is used. -/
def OneName (S : Settings) (n n' : List Char) : Prop := S n = none ∨ S n' = none

/-- Field `i` of an item, empty if there is none. -/
def fld (item : List (List Char)) (i : Nat) : List Char := item.getD i []

/-- An item that says nothing. -/
def BlankItem (item : List (List Char)) : Prop := item = [[]] ∨ (fld item 0 = [','] ∧ fld item 1 = [])

/-- The inputs of an item. -/
def ItemInputs (item : List (List Char)) (ins : List (List Char)) : Prop := Fields ',' (fld item 0) ins

/-- All files of a list exist (and there is one). -/
def AllExist (fs : Fs.FS) (ins : List (List Char)) : Prop := ins ≠ [] ∧ ∀ p ∈ ins, Fs.fileExists fs p = true

/-- An item that settles the input format: files that exist, or names in the database. -/
def Settles (w : World) (mongo : Bool) (item : List (List Char)) (f : DataFmt) : Prop :=
  ¬ BlankItem item ∧ ∃ ins, ItemInputs item ins ∧
    ((AllExist w.fs ins ∧ f = .sfile) ∨ (¬ AllExist w.fs ins ∧ ins ≠ [] ∧ mongo = true ∧ f = .gfs))

/-- The input format after a list of items: the global one; if there is none, that of the first item that settles it. -/
def FormatAfter (w : World) (mongo : Bool) (g : DataFmt) (items : List (List (List Char))) (f : DataFmt) : Prop :=
  (g ≠ .unknown ∧ f = g) ∨
  (g = .unknown ∧ ∃ pre it post, items = pre ++ it :: post ∧ Settles w mongo it f ∧ ∀ x ∈ pre, ∀ f', ¬ Settles w mongo x f') ∨
  (g = .unknown ∧ f = .unknown ∧ ∀ x ∈ items, ∀ f', ¬ Settles w mongo x f')

/-- A number in a field of an item: -9999 if it is no number (or empty). -/
def FieldNumber (s : List Char) (v : DVal) : Prop := NumText s v ∨ ((¬ ∃ u, NumText s u) ∧ v = .fin (-9999))

/-- The job of item number `i`: none if the item is blank or if its inputs can not be used in the input format in force. -/
def ItemJob (w : World) (mongo : Bool) (g out : DataFmt) (gtype : RDT) (items : List (List (List Char))) (i : Nat)
    (item : List (List Char)) (j : Option Job) : Prop :=
  (BlankItem item ∧ j = none) ∨
  (¬ BlankItem item ∧ ∃ ins f d n, ItemInputs item ins ∧ FormatAfter w mongo g (items.take (i + 1)) f ∧
    FieldNumber (fld item 2) d ∧ FieldNumber (fld item 3) n ∧
    let t := parseKeyValues (fld item 5) []
    let usable := (AllExist w.fs ins ∧ f = .sfile) ∨ f = .gfs ∨ (¬ AllExist w.fs ins ∧ t.1 = true)
    (¬ usable ∧ j = none) ∨
    (usable ∧ ∃ u : Bool, (u = true ↔ ∃ v, NumText (fld item 3) v) ∧ j = some {
        inputs := ins, inFmt := f, out := fld item 1, outFmt := if mongo then .gfs else if out = .unknown then .sfile else out
        default := d, update := u, nodata := n
        type := typeOf (if item.length < 5 then .unknown else if stringToRdt (fld item 4) = .unknown then gtype else stringToRdt (fld item 4))
        recls := t.1, table := t.2 }))

/-- Why a setting ends the program. -/
def Refused (w : World) (n : List Char) (v : List (List Char)) (code : Nat) : Prop :=
  (n = "MODE".toList ∧ code = 1 ∧ ∃ s, v.head? = some s ∧ ∀ m, ∀ x ∈ modeNames m, ¬ SameText s x) ∨
  ((n = "IN".toList ∨ n = "INPUT".toList) ∧ code = 2 ∧ FmtPaths (fun s => Fs.fileExists w.fs s = true) "IN".toList v none) ∨
  (n = "MASK".toList ∧ code = 2 ∧ FmtPaths (fun s => Fs.fileExists w.fs s = true) "MASK".toList v none) ∨
  ((n = "MONGO".toList ∨ n = "MONGODB".toList) ∧ code = 1 ∧ v.length < 4)

end CCGL.Spec
