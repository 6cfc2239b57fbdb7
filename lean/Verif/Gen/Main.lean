import Verif.Gen.Complex

/-!
# generation/main.go

The directory is a list of entries and the file system a map from names (in that directory, which is also the working
directory) to contents.  Failures of the operating system are modelled only for reading a source: the open may fail, and a
failed read still gives the bytes read so far.  Opening the directory and opening, writing and closing the outputs succeed.
-/

namespace Crunch.Gen

/-- What happens when a source file is read. -/
inductive Reading where
  /-- `os.Open` fails -/
  | cannotOpen
  /-- `ioutil.ReadAll` returns these bytes, with or without an error -/
  | bytes (s : Str) (failed : Bool)
deriving DecidableEq, Repr

/-- An `os.FileInfo` of the directory, and what reading the file gives. -/
structure Entry where
  name : Str
  isDir : Bool
  reading : Reading

/-- The loop of `filepath.Ext`, over the reversed name. -/
def extLoop : Str → Str → Str
  | [], _ => []
  | c :: t, acc => if c = 47 then [] else if c = 46 then c :: acc else extLoop t (c :: acc)

/-- `filepath.Ext(name)` (`/` is the path separator): from the last dot of the last path element on, empty without one -/
def ext (name : Str) : Str := extLoop name.reverse []

/-- `strings.HasPrefix(s, p)` -/
def hasPrefix (s p : Str) : Bool := p.isPrefixOf s
/-- `strings.TrimPrefix(s, p)` -/
def trimPrefix (s p : Str) : Str := if p.isPrefixOf s then s.drop p.length else s
/-- `strings.TrimSuffix(s, p)` -/
def trimSuffix (s p : Str) : Str := if p.isSuffixOf s then s.take (s.length - p.length) else s

/-- generation/main.go:74, which files are sources -/
def selected (e : Entry) : Bool := ext e.name == str% ".go" && !e.isDir && hasPrefix e.name (str% "_")

/-- generation/main.go:72-89, the map of the sources, as the list of its entries; the names of a directory are distinct.  The
contents are stored before the error is looked at. -/
def readFiles (dir : List Entry) : List (Str × Str) :=
  (dir.filter selected).filterMap fun e =>
    match e.reading with
    | .cannotOpen => none
    | .bytes s _ => some (e.name, s)

/-- generation/main.go:106, the name of the output -/
def outName (name : Str) : Str := join [] [trimSuffix (trimPrefix name (str% "_")) (str% ".go"), str% ".generated.go"]

/-- The contents of the files. -/
abbrev Fs := Str → Option Str

/-- generation/main.go:106-118: `os.OpenFile` with `O_RDWR|O_CREATE`, then a write at the start; the file is not truncated -/
def writeOut (fs : Fs) (name contents : Str) : Fs := fun n =>
  if n = outName name then some (contents ++ ((fs n).getD []).drop contents.length) else fs n

/-- generation/main.go:105-119, the outputs, in the order in which the map is visited -/
def writeAll (fs : Fs) (files : List (Str × Str)) : Fs := files.foldl (fun fs (name, contents) => writeOut fs name contents) fs

/-- generation/main.go:91-103: the flag `-generation` must be `complex` -/
def generate (kind : Str) (files : List (Str × Str)) : Option (List (Str × Str)) :=
  if kind = str% "complex" then some (GenerateComplex files) else none

/-- generation/main.go:35-120, one of its possible runs: maps are visited in any order, so `Run kind dir fs fs'` is a relation. -/
inductive Run (kind : Str) (dir : List Entry) (fs : Fs) : Fs → Prop where
  | stop : generate kind (readFiles dir) = none → Run kind dir fs fs
  | write {generated visited : List (Str × Str)} : generate kind (readFiles dir) = some generated →
      visited.Perm generated → Run kind dir fs (writeAll fs visited)

end Crunch.Gen
