import Verif.Model.Codegen
import Verif.Model.Utf8
import Verif.Model.Dump
import Verif.Spec.Utf8

/-! Model of /repo/cmd/asn1go/main.go, /repo/cmd/ws2bin/main.go, /repo/marshal.go and of `ParseFile` (parser.go:32-39), with the
parts of the operating system and of package `flag` they use. -/

namespace Asn1go

/-- The files: a path leads to an inode, and an inode has contents.  A file that is created gets the inode `fresh`.
Dangling links are not modelled: creating a file changes where its own path leads only.
For main.go:52-72, parser.go:32-39 and marshal.go:14. -/
structure Files where
  inode : Str → Option Nat
  content : Nat → List UInt8
  readable : Nat → Bool
  writable : Nat → Bool
  truncatable : Nat → Bool
  creatable : Str → Bool
  fresh : Nat
  readEnd : Nat → ReadEnd

/-- Replace the contents of an inode.  For main.go:67 and 87, and marshal.go:14. -/
def Files.write (f : Files) (i : Nat) (bs : List UInt8) : Files :=
  { f with content := fun j => if j = i then bs else f.content j }

/-- os.Open: the inode, if it can be opened for reading.  Called at main.go:57 and parser.go:33. -/
def osOpen (f : Files) (path : Str) : Option Nat :=
  match f.inode path with
  | none => none
  | some i => if f.readable i then some i else none

/-- os.OpenFile with O_CREATE|O_WRONLY: the files and the inode, if it can be opened for writing.  Called at main.go:63. -/
def osOpenWrite (f : Files) (path : Str) : Option (Files × Nat) :=
  match f.inode path with
  | some i => if f.writable i then some (f, i) else none
  | none =>
    if f.creatable path then
      some ({ f with inode := fun p => if p = path then some f.fresh else f.inode p,
                     content := fun j => if j = f.fresh then [] else f.content j }, f.fresh)
    else none

/-- Truncate(0), called at main.go:67. -/
def osTruncate (f : Files) (i : Nat) : Option Files := if f.truncatable i then some (f.write i []) else none

/-- parser.go:32-39 `ParseFile`; `none` is the error of `os.Open`. -/
def parseFile (u : Unicode) (f : Files) (name : Str) : Option ParseResult :=
  match osOpen f name with
  | none => none
  | some i => some (parseBytes u (f.content i) (f.readEnd i))

/-- How a process ends.  `crash` stands for a panic, for an exhausted stack and for a run that never ends.  main.go:29-33 -/
inductive Status
  | exit (code : Nat)
  | crash
  deriving DecidableEq, Repr

/-- A finished run: the files after it, what was written to standard output, and how it ended.  main.go:74-94 -/
structure Run where
  files : Files
  stdout : List UInt8
  status : Status

/-- main.go:22-27 `flagsType` -/
structure Flags where
  inputName : Str := []
  outputName : Str := []
  packageName : Str := []
  defaultIntRepr : Str := c! "int64"
  deriving DecidableEq

/-- The first `=` after the first character: the name before it, and the value after it.  For main.go:39. -/
def splitValue : Str → Str × Option Str
  | [] => ([], none)
  | [c] => ([c], none)
  | c :: '=' :: l => ([c], some l)
  | c :: d :: l => (c :: (splitValue (d :: l)).1, (splitValue (d :: l)).2)

/-- What `parseOne` of package `flag` does first: the end of the flags with the arguments left, a flag without its minuses, or
bad syntax.  For main.go:39. -/
inductive FlagHead
  | stop (args : List Str)
  | flag (name : Str) (rest : List Str)
  | bad

/-- `flag.FlagSet.parseOne`, up to the name.  For main.go:39. -/
def flagHead : List Str → FlagHead
  | [] => .stop []
  | s :: rest =>
    match s with
    | '-' :: '-' :: [] => .stop rest
    | '-' :: '-' :: c :: l => if c = '-' ∨ c = '=' then .bad else .flag (c :: l) rest
    | '-' :: c :: l => if c = '=' then .bad else .flag (c :: l) rest
    | _ => .stop (s :: rest)

/-- main.go:37-38: the flags defined, and where their values go. -/
def setFlag (f : Flags) (name value : Str) : Option Flags :=
  if name = c! "package" then some { f with packageName := value }
  else if name = c! "default-integer-repr" then some { f with defaultIntRepr := value }
  else none

/-- `flag.FlagSet.Parse` with `flag.ExitOnError`: the flags and the other arguments, or the exit status.  Each round takes at
least one argument; `n` bounds the rounds.  Called at main.go:39. -/
def flagLoop : Nat → Flags → List Str → Except Nat (Flags × List Str)
  | 0, f, args => .ok (f, args)
  | n + 1, f, args =>
    match flagHead args with
    | .stop rest => .ok (f, rest)
    | .bad => .error 2
    | .flag s rest =>
      match setFlag f (splitValue s).1 [] with
      | none => if (splitValue s).1 = c! "help" ∨ (splitValue s).1 = c! "h" then .error 0 else .error 2
      | some _ =>
        match (splitValue s).2, rest with
        | some v, _ => flagLoop n ((setFlag f (splitValue s).1 v).getD f) rest
        | none, v :: rest' => flagLoop n ((setFlag f (splitValue s).1 v).getD f) rest'
        | none, [] => .error 2

/-- main.go:35-50 `parseFlags`, of the arguments after the program's name. -/
def parseFlags (args : List Str) : Except Nat Flags :=
  match flagLoop (args.length + 1) {} args with
  | .error c => .error c
  | .ok (f, rest) =>
    match rest with
    | [] => .ok f
    | [i] => .ok { f with inputName := i }
    | [i, o] => .ok { f with inputName := i, outputName := o }
    | _ => .error 1

/-- Where a run reads or writes.  main.go:52-55 -/
inductive Channel
  | std
  | file (inode : Nat)
  deriving DecidableEq

/-- main.go:52-72 `openChannels`: `none` in the last place if it stops with exit status 1. -/
def openChannels (f : Files) (inputName outputName : Str) : Files × Option (Channel × Channel) :=
  let input : Option Channel := if inputName = [] then some .std else (osOpen f inputName).map .file
  match input with
  | none => (f, none)
  | some i =>
    if outputName = [] then (f, some (i, .std))
    else
      match osOpenWrite f outputName with
      | none => (f, none)
      | some (f1, o) =>
        match osTruncate f1 o with
        | none => (f1, none)
        | some f2 => (f2, some (i, .file o))

/-- The text as bytes.  For main.go:87. -/
def utf8 (s : Str) : List UInt8 := s.flatMap Spec.utf8Bytes

/-- Write at the start of an output that is empty.  For main.go:87. -/
def writeOut (f : Files) (o : Channel) (text : Str) : Files × List UInt8 :=
  match o with
  | .std => (f, utf8 text)
  | .file i => (f.write i (utf8 text), [])

/-- What is read from a channel, and how it ends.  For main.go:78. -/
def readChannel (f : Files) (stdin : List UInt8 × ReadEnd) : Channel → List UInt8 × ReadEnd
  | .std => stdin
  | .file i => (f.content i, f.readEnd i)

/-- main.go:74-94 `main`, after the flags. -/
def runWith (u : Casing) (print : Printer) (fuel : Nat) (f : Files) (stdin : List UInt8 × ReadEnd) (fl : Flags) : Run :=
  match openChannels f fl.inputName fl.outputName with
  | (f1, none) => ⟨f1, [], .exit 1⟩
  | (f1, some (i, o)) =>
    match parseBytes u.toUnicode (readChannel f1 stdin i).1 (readChannel f1 stdin i).2 with
    | .ok m =>
      match generate u print fuel (newCodeGenerator ⟨fl.packageName, fl.defaultIntRepr⟩) m with
      | none => ⟨f1, [], .crash⟩
      | some g => ⟨(writeOut f1 o g.written).1, (writeOut f1 o g.written).2, .exit (if g.error.isSome then 1 else 0)⟩
    | .err _ _ => ⟨f1, [], .exit 1⟩
    | _ => ⟨f1, [], .crash⟩

/-- main.go:74-94 `main` -/
def runMain (u : Casing) (print : Printer) (fuel : Nat) (f : Files) (stdin : List UInt8 × ReadEnd) (args : List Str) : Run :=
  match parseFlags args with
  | .error c => ⟨f, [], .exit c⟩
  | .ok fl => runWith u print fuel f stdin fl

/-- cmd/ws2bin/main.go:10-20 `main`.  The bytes of the input are the characters of the text. -/
def runWs2bin (f : Files) (stdin : List UInt8 × ReadEnd) : Run :=
  match stdin.2 with
  | .fail => ⟨f, [], .exit 1⟩
  | .eof =>
    match parseWiresharkHex (stdin.1.map fun b => Char.ofNat b.toNat) with
    | none => ⟨f, [], .crash⟩
    | some bs => ⟨f, bs, .exit 0⟩

/-- How `MarshalToFile` ends.  marshal.go:9-19 -/
inductive MarshalResult
  | ok
  | marshalError
  | writeError
  deriving DecidableEq, Repr

/-- marshal.go:9-19 `MarshalToFile`.  `data` is what asn1.Marshal returns, `none` for an error.  `ioutil.WriteFile` opens the file
with O_WRONLY|O_CREATE|O_TRUNC, and writes; `written` tells how much is written before an error, if there is one. -/
def marshalToFile (f : Files) (data : Option (List UInt8)) (path : Str) (written : Option Nat) : Files × MarshalResult :=
  match data with
  | none => (f, .marshalError)
  | some bs =>
    match osOpenWrite f path with
    | none => (f, .writeError)
    | some (f1, i) =>
      match osTruncate f1 i with
      | none => (f1, .writeError)
      | some f2 =>
        match written with
        | none => (f2.write i bs, .ok)
        | some n => (f2.write i (bs.take n), .writeError)

end Asn1go
