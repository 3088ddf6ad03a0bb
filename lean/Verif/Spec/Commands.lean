import Verif.Model.Commands

/-! What the arguments of the command asn1go mean, and what it reads and writes, independent of how it does so. -/

namespace Asn1go.Spec

/-- The options: the name of the package and the representation of integers. -/
structure Options where
  package : Str := []
  repr : Str := c! "int64"

/-- `Spelled name value w`: the arguments `w` give the option `name` the value. -/
inductive Spelled : Str → Str → List Str → Prop
  | eq1 (n v : Str) : Spelled n v ['-' :: (n ++ '=' :: v)]
  | eq2 (n v : Str) : Spelled n v ['-' :: '-' :: (n ++ '=' :: v)]
  | next1 (n v : Str) : Spelled n v ['-' :: n, v]
  | next2 (n v : Str) : Spelled n v ['-' :: '-' :: n, v]

/-- The argument looks like an option: a minus and something. -/
def OptionLike (a : Str) : Prop := ∃ c l, a = '-' :: c :: l

/-- The argument asks for help. -/
def AsksHelp (a : Str) : Prop :=
  ∃ n, (n = c! "h" ∨ n = c! "help") ∧ (a = '-' :: n ∨ a = '-' :: '-' :: n ∨ ∃ v, a = '-' :: (n ++ '=' :: v) ∨ a = '-' :: '-' :: (n ++ '=' :: v))

/-- The arguments start with an option of the program. -/
def StartsOption (args : List Str) : Prop :=
  ∃ n v w rest, (n = c! "package" ∨ n = c! "default-integer-repr") ∧ Spelled n v w ∧ args = w ++ rest

/-- What a command line says. -/
inductive Meaning
  | run (o : Options) (operands : List Str)
  | help
  | bad

/-- `CommandLine o args m`: after the options `o`, the arguments `args` mean `m`.  Options come first, up to `--` or the first
argument that does not look like one; later options win. -/
inductive CommandLine : Options → List Str → Meaning → Prop
  | none (o : Options) : CommandLine o [] (.run o [])
  | operand (o : Options) (a : Str) (rest : List Str) : ¬ OptionLike a → CommandLine o (a :: rest) (.run o (a :: rest))
  | dashes (o : Options) (rest : List Str) : CommandLine o ((c! "--") :: rest) (.run o rest)
  | package (o : Options) (v : Str) (w rest : List Str) (m : Meaning) : Spelled (c! "package") v w →
      CommandLine { o with package := v } rest m → CommandLine o (w ++ rest) m
  | repr (o : Options) (v : Str) (w rest : List Str) (m : Meaning) : Spelled (c! "default-integer-repr") v w →
      CommandLine { o with repr := v } rest m → CommandLine o (w ++ rest) m
  | help (o : Options) (a : Str) (rest : List Str) : AsksHelp a → CommandLine o (a :: rest) .help
  | bad (o : Options) (a : Str) (rest : List Str) : OptionLike a → a ≠ c! "--" → ¬ AsksHelp a → ¬ StartsOption (a :: rest) →
      CommandLine o (a :: rest) .bad

/-- What the program is asked to do; an empty name stands for standard input or output. -/
structure Job where
  options : Options
  input : Str
  output : Str

/-- The arguments ask for the job. -/
def Asks (args : List Str) (j : Job) : Prop :=
  ∃ ops, CommandLine {} args (.run j.options ops) ∧ ops.length ≤ 2 ∧ j.input = ops.getD 0 [] ∧ j.output = ops.getD 1 []

/-- The input can be opened. -/
def CanRead (f : Files) (name : Str) : Prop := name = [] ∨ ∃ i, f.inode name = some i ∧ f.readable i = true

/-- The inode of the output. -/
def target (f : Files) (name : Str) : Nat := (f.inode name).getD f.fresh

/-- The output can be opened, or created, and emptied. -/
def CanWrite (f : Files) (name : Str) : Prop :=
  name = [] ∨ ((∃ i, f.inode name = some i ∧ f.writable i = true) ∨ (f.inode name = none ∧ f.creatable name = true)) ∧
    f.truncatable (target f name) = true

/-- What is read: the output has been emptied before. -/
def Source (f : Files) (stdin : List UInt8 × ReadEnd) (j : Job) (bs : List UInt8) (fin : ReadEnd) : Prop :=
  (j.input = [] ∧ stdin = (bs, fin)) ∨
  (j.input ≠ [] ∧ ∃ i, f.inode j.input = some i ∧ fin = f.readEnd i ∧
    bs = if j.output ≠ [] ∧ target f j.output = i then [] else f.content i)

/-- The inode for new files is not in use. -/
def Fresh (f : Files) : Prop := ∀ p i, f.inode p = some i → i ≠ f.fresh

end Asn1go.Spec
