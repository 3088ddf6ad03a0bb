import Verif.Model.Actions
import Verif.Model.Tables

/-! Model of the parser driver `Parse` (/repo/y.go:853-1060 and 2243) and of /repo/parser.go.

The Go stack `yyS` is a growing array into which two actions keep pointers, so the model keeps the array,
the arrays it replaced when growing, and pointers into them.  Error recovery pops, the default action copies a
possibly stale slot and `yyVAL` keeps the fields no action wrote, as in the Go code. -/

namespace Asn1go

/-- `&yyS[idx]` in the `gen`-th array used for the stack.  y.go:893, 922-926 and 1040-1044 -/
structure Slot where
  gen : Nat
  idx : Nat
  deriving DecidableEq, Repr

/-- Target of an `ObjectIdElement.Reference` made by the parser: `&yyDollar[2].DefinedValue` of a stack slot
(y.go:1877), or a fresh copy (y.go:1901, 1914). -/
inductive RefPtr
  | slot (s : Slot)
  | copy (d : DefinedValue)
  deriving DecidableEq, Repr

/-- Symbol values as the parser has them: pointers into the stack are not yet followed.  y.go:15-73 -/
abbrev RawSym := SymType RefPtr Slot

/-- How a run of the parser can fail to return: by a Go panic (index out of range), or by a call of `Lex` that does
not return.  For y.go:888-2243. -/
inductive Abort
  | panic
  | hang
  deriving DecidableEq, Repr

/-- y.go:888-906: the local variables of `Parse`, its receiver's `char` and `lval`, and the lexer.  `depth` is
`yyp + 1`; `old` are the arrays replaced by growing, oldest first; `cur` is `yyS`. -/
structure PState where
  lexer : LexState
  result : Option (ModuleDefinition RefPtr Slot) := none
  lval : LVal := {}
  char : Int := -1
  token : Int := -1
  old : List (List RawSym) := []
  cur : List RawSym
  depth : Nat := 0
  val : RawSym := {}
  state : Nat := 0
  errflag : Nat := 0
  nerrs : Nat := 0

/-- Indexing a table; out of range is a panic.  y.go:931, 942-943, 956, 965-976, 998-1001 and 1037-1057 -/
def Tab.at (t : Tab) (i : Int) : Except Abort Int :=
  if i < 0 then .error .panic
  else match t.get? i.toNat with
    | some v => .ok v
    | none => .error .panic

/-- A state number read from a table (a negative one would panic when next used as an index).  y.go:947, 1000 and 1053-1057 -/
def toState (i : Int) : Except Abort Nat := if i < 0 then .error .panic else .ok i.toNat

/-- y.go:849-882 `yylex1` after the call of `Lex`: the internal token number.  `yyTok1` has one entry, `yyTok3` none
(its single 0 cannot equal a positive `char`). -/
def tokenOf (char : Int) : Except Abort Int := do
  let t ←
    if char ≤ 0 then Tab.yyTok1.at 0
    else if char < 1 then Tab.yyTok1.at char
    else if yyPrivate ≤ char ∧ char < yyPrivate + 127 then Tab.yyTok2.at (char - yyPrivate)
    else pure 0
  if t = 0 then Tab.yyTok2.at 1 else pure t

/-- y.go:935-937 and 958-960: read a token unless there is one. -/
def fetch (u : Unicode) (s : PState) : Except Abort PState :=
  if s.char < 0 then
    match lex u s.lexer s.lval with
    | none => .error .hang
    | some (c, lval, lexer) => do
      let t ← tokenOf c
      pure { s with lexer := lexer, lval := lval, char := c, token := t }
  else pure s

/-- What the tables tell the parser to do.  y.go:930-981 -/
inductive Decision
  | shift (state : Nat)
  | reduce (rule : Nat)
  | accept
  | error
  deriving DecidableEq, Repr

/-- y.go:963-969: position after the header of the state's entry in the exception table. -/
def excaFind (state : Nat) : List Int → Except Abort (List Int)
  | a :: b :: l => if a = -1 ∧ b = state then .ok l else excaFind state l
  | _ => .error .panic

/-- y.go:970-975 -/
def excaScan (token : Int) : List Int → Except Abort Int
  | a :: b :: l => if a < 0 ∨ a = token then .ok b else excaScan token l
  | _ => .error .panic

/-- y.go:976-981 and 984: meaning of an entry of `yyDef` or `yyExca`. -/
def defaultDecision (n : Int) : Decision :=
  if n < 0 then .accept else if n = 0 then .error else .reduce n.toNat

/-- y.go:954-981 (label `yydefault`). -/
def decideDefault (u : Unicode) (s : PState) : Except Abort (Decision × PState) := do
  let n ← Tab.yyDef.at s.state
  if n = -2 then
    let s ← fetch u s
    let l ← excaFind s.state Tab.yyExca.toList
    let n ← excaScan s.token l
    pure (defaultDecision n, s)
  else
    pure (if n = 0 then .error else .reduce n.toNat, s)

/-- y.go:930-981 (label `yynewstate`): choose between shift, reduce, accept and error. -/
def decideStep (u : Unicode) (s : PState) : Except Abort (Decision × PState) := do
  let n ← Tab.yyPact.at s.state
  if n ≤ yyFlag then decideDefault u s
  else
    let s ← fetch u s
    let n := n + s.token
    if n < 0 ∨ yyLast ≤ n then decideDefault u s
    else
      let a ← Tab.yyAct.at n
      let c ← Tab.yyChk.at a
      if c = s.token then do
        let st ← toState a
        pure (.shift st, s)
      else decideDefault u s

/-- y.go:922-926 and 1040-1044: double the array when index `i` is out of range. -/
def grow (s : PState) (i : Nat) : PState :=
  if s.cur.length ≤ i then
    { s with old := s.old ++ [s.cur], cur := s.cur ++ List.replicate s.cur.length {} }
  else s

/-- y.go:915-928 (label `yystack`): push `yyVAL` with the current state. -/
def push (s : PState) : PState :=
  let s := grow s s.depth
  { s with cur := s.cur.set s.depth { s.val with yys := s.state }, depth := s.depth + 1 }

/-- y.go:943-952: shift. -/
def shift (st : Nat) (s : PState) : PState :=
  push { s with
    char := -1, token := -1, state := st, errflag := s.errflag - 1
    val := { name := s.lval.name, numberRepr := s.lval.numberRepr, number := s.lval.number } }

/-- y.go:1047-1059: the state to go to with nonterminal `nt` from the state `top`. -/
def gotoState (nt : Int) (top : Nat) : Except Abort Nat := do
  let g ← Tab.yyPgo.at nt
  let j := g + top + 1
  if yyLast ≤ j then Tab.yyAct.at g >>= toState
  else
    let st ← Tab.yyAct.at j
    let c ← Tab.yyChk.at st
    if c = -nt then toState st else Tab.yyAct.at g >>= toState

/-- y.go:1028-1061 and the actions: reduce by rule `n`, then push (y.go:2242). -/
def reduce (n : Nat) (s : PState) : Except Abort PState := do
  let k ← Tab.yyR2.at n
  let nt ← Tab.yyR1.at n
  let k := k.toNat
  -- `yyp - k` must still be a valid index
  if s.depth ≤ k then .error .panic
  else
    let s := grow s (s.depth - k)
    let base := s.depth - k
    match s.cur[base]?, s.cur[base - 1]? with
    | some v, some b => do
      let st ← gotoState nt b.yys
      let dollar (i : Nat) : RawSym := (s.cur[base + i - 1]?).getD {}
      let ptrs : Pointers RefPtr Slot :=
        { value3 := ⟨s.old.length, base + 2⟩, defined2 := .slot ⟨s.old.length, base + 1⟩, copy := .copy }
      pure (push { s with
        depth := base, state := st, val := action n ptrs dollar v
        result := if n = 1 then some (moduleOf dollar) else s.result })
    | _, _ => .error .panic

/-- y.go:997-1011: find a state on the stack with a shift of `error`; `none` when the stack becomes empty. -/
def recoverGo (cur : List RawSym) : Nat → Except Abort (Option (Nat × Nat))
  | 0 => .ok none
  | d + 1 => do
    match cur[d]? with
    | none => .error .panic
    | some b =>
      let n ← Tab.yyPact.at b.yys
      let n := n + yyErrCode
      if 0 ≤ n ∧ n < yyLast then
        let st ← Tab.yyAct.at n
        let c ← Tab.yyChk.at st
        if c = yyErrCode then do
          let st ← toState st
          pure (some (st, d + 1))
        else recoverGo cur d
      else recoverGo cur d

/-- One round of the parser's loop: either it goes on with a new state, or it returns.  y.go:909-1026 -/
inductive Step
  | next (s : PState)
  | ret (code : Int) (s : PState)

/-- y.go:982-1025: the error action. -/
def errorStep (s : PState) : Except Abort Step :=
  if s.errflag = 3 then
    if s.token = yyEofCode then .ok (.ret 1 s)
    else .ok (.next { s with char := -1, token := -1 })
  else
    let s := if s.errflag = 0 then
        { s with lexer := s.lexer.error (.syntaxError s.state s.token), nerrs := s.nerrs + 1 }
      else s
    let s := { s with errflag := 3 }
    do
      match ← recoverGo s.cur s.depth with
      | none => pure (.ret 1 { s with depth := 0 })
      | some (st, d) => pure (.next (push { s with state := st, depth := d }))

/-- One round: decide, then act.  y.go:930-1061 -/
def step (u : Unicode) (s : PState) : Except Abort Step := do
  let (dec, s) ← decideStep u s
  match dec with
  | .shift st => pure (.next (shift st s))
  | .reduce n => do
    let s ← reduce n s
    pure (.next s)
  | .accept => pure (.ret 0 s)
  | .error => errorStep s

/-- How a run of `Parse` ends.  y.go:909-913 -/
inductive Outcome
  | ret (code : Int) (s : PState)
  | abort (a : Abort)
  | outOfFuel

/-- The loop of `Parse`.  The fuel only makes the function total: see `runSteps_enough`.  y.go:915-2242 -/
def runSteps (u : Unicode) : Nat → PState → Outcome
  | 0, _ => .outOfFuel
  | n + 1, s =>
    match step u s with
    | .error a => .abort a
    | .ok (.ret c s) => .ret c s
    | .ok (.next s) => runSteps u n s

/-- y.go:888-928: the state on entry, after the first push of state 0. -/
def PState.init (lexer : LexState) : PState :=
  push { lexer := lexer, cur := List.replicate yyInitialStackSize {} }

/-- Number of rounds that is always enough for a text of `n` runes.  Not in the code: the loop y.go:915-2242 has no bound. -/
def fuelFor (n : Nat) : Nat := 34 * n + 64

/-- y.go:884-886 `yyParse` -/
def yyParse (u : Unicode) (lexer : LexState) : Outcome :=
  runSteps u (fuelFor lexer.rest.length) (PState.init lexer)

/-- The symbol value a slot holds in the final memory.  y.go:893 and 927 -/
def PState.load (s : PState) (p : Slot) : RawSym :=
  ((((s.old ++ [s.cur])[p.gen]?).getD [])[p.idx]?).getD {}

/-- `*e.Reference` in the final memory.  ast.go:717 -/
def PState.derefRef (s : PState) : RefPtr → DefinedValue
  | .copy d => d
  | .slot p => (s.load p).definedValue

/-- `*c.Default` in the final memory.  ast.go:415 -/
def PState.derefValue (s : PState) (p : Slot) : Value DefinedValue :=
  (s.load p).value.map s.derefRef

/-- A module as a caller of the parser sees it: all pointers followed.  ast.go:7-13 -/
abbrev Module := ModuleDefinition DefinedValue (Value DefinedValue)

/-- What `ParseStream` returns: the module, an error (line number as printed, message), a nil module with
nil error, or no return at all.  parser.go:21-29 -/
inductive ParseResult
  | ok (m : Module)
  | err (line : Int) (msg : ErrMsg)
  | nilModule
  | panic
  | hang
  | outOfFuel

/-- parser.go:21-29 `ParseStream` after `yyParse`. -/
def resultOf : Outcome → ParseResult
  | .ret _ s =>
    match s.lexer.err with
    | some (line, m) => .err line m
    | none =>
      match s.result with
      | some m => .ok (m.map s.derefRef s.derefValue)
      | none => .nilModule
  | .abort .panic => .panic
  | .abort .hang => .hang
  | .outOfFuel => .outOfFuel

/-- parser.go:21-29 `ParseStream`, on a reader that delivers `text` and then ends as `fin` says. -/
def parseStream (u : Unicode) (text : Str) (fin : ReadEnd) : ParseResult :=
  resultOf (yyParse u (LexState.init text fin))

/-- parser.go:16-18 `ParseString` -/
def parseString (u : Unicode) (text : Str) : ParseResult := parseStream u text .eof

end Asn1go
