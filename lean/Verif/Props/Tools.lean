import Verif.Proofs.Tools.Utf8
import Verif.Proofs.Tools.Commands
import Verif.Proofs.Tools.Dump
import Verif.Proofs.Codegen.Basic
import Verif.Props.Parser
import Verif.Props.Codegen

/-! The lookup functions, the hex dump reader, the commands and the reading of files. -/

namespace Asn1go.Props

open Spec

/-! ### C52: lookup -/

/-- `AssignmentList.Get` (ast.go:69-76) returns an assignment exactly if it is the first with that name. -/
theorem C52_get (l : List MAssignment) (name : Str) (a : MAssignment) :
    assignmentGet l name = some a ↔ ∃ before after, l = before ++ a :: after ∧ a.name = name ∧ ∀ b ∈ before, b.name ≠ name := by
  rw [CG.assignmentGet_eq, List.find?_eq_some_iff_append]
  constructor
  · rintro ⟨h, as, bs, rfl, h2⟩
    exact ⟨as, bs, rfl, by simpa using h, fun b hb => by simpa using h2 b hb⟩
  · rintro ⟨as, bs, rfl, h, h2⟩
    exact ⟨by simpa using h, as, bs, rfl, fun b hb => by simpa using h2 b hb⟩

/-- `GetType` (ast.go:93-104) returns the assignment that `Get` returns if it is a type assignment, and nothing otherwise. -/
theorem C52_get_type (l : List MAssignment) (name r : Str) (t : MTy) :
    assignmentGetType l name = some (r, t) ↔ assignmentGet l name = some (.type r t) := by
  unfold assignmentGetType
  cases h : assignmentGet l name with
  | none => simp
  | some a => cases a <;> simp

/-- `GetValue` (ast.go:79-90), likewise. -/
theorem C52_get_value (l : List MAssignment) (name r : Str) (t : MTy) (v : Value DefinedValue) :
    assignmentGetValue l name = some (r, t, v) ↔ assignmentGet l name = some (.value r t v) := by
  unfold assignmentGetValue
  cases h : assignmentGet l name with
  | none => simp
  | some a => cases a <;> simp

/-- A value hides a type of the same name that follows it. -/
example : assignmentGetType [(.value (c! "a") .boolean (.boolean true) : MAssignment), .type (c! "a") .boolean] (c! "a") = none ∧
    assignmentGetType [(.value (c! "a") .boolean (.boolean true) : MAssignment), .type (c! "B") .boolean] (c! "B") = some (c! "B", .boolean) :=
  ⟨rfl, rfl⟩

/-! ### C53–C55: hex dumps -/

theorem hexOf_byte (upper : Bool) (b : UInt8) : FieldByte (hexOf upper b) b ∧ ' ' ∉ hexOf upper b ∧ '\n' ∉ hexOf upper b ∧ hexOf upper b ≠ [] := by
  have key : ∀ n, n < 16 → hexDigit (if n < 10 then Char.ofNat (48 + n) else if upper then Char.ofNat (55 + n) else Char.ofNat (87 + n)) = some n ∧
      (if n < 10 then Char.ofNat (48 + n) else if upper then Char.ofNat (55 + n) else Char.ofNat (87 + n)) ≠ ' ' ∧
      (if n < 10 then Char.ofNat (48 + n) else if upper then Char.ofNat (55 + n) else Char.ofNat (87 + n)) ≠ '\n' := by
    cases upper <;> decide
  have hb := b.toNat_lt
  obtain ⟨h1, h2, h3⟩ := key (b.toNat / 16) (by omega)
  obtain ⟨h4, h5, h6⟩ := key (b.toNat % 16) (by omega)
  refine ⟨⟨b.toNat, ?_, by omega, by omega, by omega⟩, ?_, ?_, by simp [hexOf]⟩
  · have := SignedHex.plain _ _ (Hex.more _ _ _ _ h1 (Hex.one _ _ h4))
    have e : b.toNat / 16 * 16 ^ 1 + b.toNat % 16 = b.toNat := by omega
    simp only [List.length_singleton] at this
    rw [e] at this
    exact this
  · simp only [hexOf, List.mem_cons, List.not_mem_nil, or_false, not_or]; exact ⟨Ne.symm h2, Ne.symm h5⟩
  · simp only [hexOf, List.mem_cons, List.not_mem_nil, or_false, not_or]; exact ⟨Ne.symm h3, Ne.symm h6⟩

theorem joined_spaces (sep : Char) (w : Str) (rest : List Str) : joined sep (w :: rest) = w ++ rest.flatMap (fun f => sep :: f) := by
  induction rest generalizing w with
  | nil => simp [joined]
  | cons a rest ih => rw [joined_cons _ _ (by simp), ih]; simp

/-- The fields of a line of a dump. -/
def lineFields (l : DumpLine) : List Str := l.label :: (List.replicate l.gap [] ++ l.bytes.map (hexOf l.upper))

theorem line_text (l : DumpLine) : l.text = joined ' ' (lineFields l) := by
  rw [lineFields, joined_spaces, DumpLine.text, List.flatMap_append, List.append_assoc]
  congr 2
  · induction l.gap with
    | zero => rfl
    | succ n ih => rw [List.replicate_succ, List.replicate_succ, List.flatMap_cons, ← ih]; rfl
  · rw [List.flatMap_map]

/-- **C53.**  A dump made of lines, each with a label, any number of further spaces and any number of bytes, in capital or small
letters, is read back as the bytes. -/
theorem C53_round_trip (lines : List DumpLine) (hne : lines ≠ []) (hl : ∀ l ∈ lines, ' ' ∉ l.label ∧ '\n' ∉ l.label) :
    parseWiresharkHex (joined '\n' (lines.map DumpLine.text)) = some (lines.flatMap DumpLine.bytes) := by
  have hm : lines.map DumpLine.text = (lines.map lineFields).map (joined ' ') := by
    rw [List.map_map]; exact List.map_congr_left fun l _ => line_text l
  have ht : TextFields (joined '\n' (lines.map DumpLine.text)) (lines.map lineFields) := by
    refine ⟨by simpa using hne, ?_, by rw [hm]⟩
    intro l hl'
    obtain ⟨d, hd, rfl⟩ := List.mem_map.1 hl'
    refine ⟨by simp [lineFields], fun f hf => ?_⟩
    rcases List.mem_cons.1 hf with rfl | hf
    · exact hl d hd
    · rcases List.mem_append.1 hf with hf | hf
      · obtain ⟨_, rfl⟩ := List.mem_replicate.1 hf; simp
      · obtain ⟨b, _, rfl⟩ := List.mem_map.1 hf
        exact ⟨(hexOf_byte d.upper b).2.1, (hexOf_byte d.upper b).2.2.1⟩
  rw [hex_spec ht]
  clear ht hm hl hne
  induction lines with
  | nil => exact .nil
  | cons l lines ih =>
    rw [List.map_cons, List.flatMap_cons]
    refine List.rel_append ?_ ih
    show List.Forall₂ FieldByte ((List.replicate l.gap [] ++ l.bytes.map (hexOf l.upper)).filter (· ≠ [])) l.bytes
    rw [List.filter_append]
    have e1 : (List.replicate l.gap ([] : Str)).filter (· ≠ []) = [] := by
      rw [List.filter_eq_nil_iff]; intro a ha; obtain ⟨_, rfl⟩ := List.mem_replicate.1 ha; simp
    have e2 : (l.bytes.map (hexOf l.upper)).filter (· ≠ []) = l.bytes.map (hexOf l.upper) := by
      rw [List.filter_eq_self]; intro a ha; obtain ⟨b, _, rfl⟩ := List.mem_map.1 ha; simpa using (hexOf_byte l.upper b).2.2.2
    rw [e1, e2, List.nil_append]
    induction l.bytes with
    | nil => exact .nil
    | cons b bs ih => exact .cons (hexOf_byte l.upper b).1 ih

/-- Two lines of a dump. -/
example : joined '\n' ([⟨c! "0000", 1, false, [0x30, 0xff]⟩, ⟨c! "0010", 1, true, [0xab]⟩].map DumpLine.text) = c! "0000  30 ff\n0010  AB" ∧
    parseWiresharkHex (c! "0000  30 ff\n0010  AB") = some [0x30, 0xff, 0xab] := ⟨rfl, rfl⟩

/-- Every text is, in one way, lines of fields. -/
theorem C54_fields_exist (text : Str) : ∃ lines, TextFields text lines ∧ ∀ lines', TextFields text lines' → lines' = lines := by
  refine ⟨_, text_fields text, fun lines' h => ?_⟩
  rw [text_split h, List.map_map]
  conv => lhs; rw [← List.map_id lines']
  refine (List.map_congr_left fun l hl => ?_).symm
  exact split_joined ' ' l (h.fields l hl).1 (fun f hf => ((h.fields l hl).2 f hf).1)

/-- What `ParseWiresharkHex` returns: the bytes of the fields. -/
theorem C54_value (text : Str) (lines : List (List Str)) (h : TextFields text lines) (bs : List UInt8) :
    parseWiresharkHex text = some bs ↔ List.Forall₂ FieldByte (byteFields lines) bs := hex_spec h bs

/-- **C54.**  `ParseWiresharkHex` (dump.go:13-29) panics exactly if a field, not empty and not the first of its line, is not a
hexadecimal number with an optional sign between -256 and 255. -/
theorem C54_panics (text : Str) (lines : List (List Str)) (h : TextFields text lines) :
    parseWiresharkHex text = none ↔ ∃ f ∈ byteFields lines, ¬ ∃ x : Int, SignedHex f x ∧ -256 ≤ x ∧ x ≤ 255 := by
  have key : ∀ l : List Str, (∃ bs, List.Forall₂ FieldByte l bs) ↔ ∀ f ∈ l, ∃ x : Int, SignedHex f x ∧ -256 ≤ x ∧ x ≤ 255 := by
    intro l
    induction l with
    | nil => exact ⟨fun _ _ h => (List.not_mem_nil h).elim, fun _ => ⟨[], .nil⟩⟩
    | cons f l ih =>
      constructor
      · rintro ⟨bs, hb⟩
        cases hb with
        | cons h1 h2 =>
          intro g hg
          rcases List.mem_cons.1 hg with rfl | hg
          · obtain ⟨x, a, b, c, _⟩ := h1; exact ⟨x, a, b, c⟩
          · exact ih.1 ⟨_, h2⟩ g hg
      · intro hall
        obtain ⟨bs, hb⟩ := ih.2 fun g hg => hall g (List.mem_cons_of_mem _ hg)
        obtain ⟨x, a, b, c⟩ := hall f (by simp)
        exact ⟨_, .cons ⟨x, a, b, c, byte_of_int x⟩ hb⟩
  constructor
  · intro hn
    refine Classical.byContradiction fun hc => ?_
    obtain ⟨bs, hb⟩ := (key (byteFields lines)).2 fun f hf => Classical.byContradiction fun hx => hc ⟨f, hf, hx⟩
    rw [(hex_spec h bs).2 hb] at hn
    cases hn
  · rintro ⟨f, hf, hx⟩
    cases hp : parseWiresharkHex text with
    | none => rfl
    | some bs => exact (hx ((key _).1 ⟨bs, (hex_spec h bs).1 hp⟩ f hf)).elim

/-- Signed numbers are read, `100` is out of range, `0x1` is not a number, and the first field may be anything. -/
example : parseWiresharkHex (c! "zz -1 -100 +7f") = some [0xff, 0, 0x7f] ∧ parseWiresharkHex (c! "0 100") = none ∧
    parseWiresharkHex (c! "0 0x1") = none ∧ parseWiresharkHex (c! "0 -101") = none := ⟨rfl, rfl, rfl, rfl⟩

/-- **C55.**  Lines are read one by one. -/
theorem C55_lines (a b : Str) : parseWiresharkHex (a ++ '\n' :: b) =
    match parseWiresharkHex a, parseWiresharkHex b with
    | some x, some y => some (x ++ y)
    | _, _ => none := by
  have e : splitAt1 '\n' (a ++ '\n' :: b) = splitAt1 '\n' a ++ splitAt1 '\n' b := by
    induction a with
    | nil => exact split_append '\n' b [] (by simp)
    | cons c a ih =>
      by_cases hc : c = '\n'
      · rw [List.cons_append, splitAt1, if_pos hc, ih, splitAt1, if_pos hc]; rfl
      · obtain ⟨w, ws, e1, e2⟩ := splitAt1_other '\n' c a hc
        rw [List.cons_append, splitAt1, if_neg hc, ih, e1, e2]; rfl
  have l : ∀ x y, parseLines (x ++ y) = match parseLines x, parseLines y with | some p, some q => some (p ++ q) | _, _ => none := by
    intro x y
    induction x with
    | nil => rw [List.nil_append, parseLines]; cases parseLines y <;> rfl
    | cons s x ih =>
      rw [List.cons_append, parseLines, parseLines, ih]
      cases parseFields (splitAt1 ' ' s).tail <;> cases parseLines x <;> cases parseLines y <;> simp
  rw [parseWiresharkHex, e, l]
  rfl

/-- **C55.**  The first field of a line does not matter. -/
theorem C55_labels (t t' : Str) (lines lines' : List (List Str)) (h : TextFields t lines) (h' : TextFields t' lines')
    (he : lines.map List.tail = lines'.map List.tail) : parseWiresharkHex t = parseWiresharkHex t' := by
  have e : byteFields lines = byteFields lines' := by
    have : ∀ l : List (List Str), byteFields l = (l.map List.tail).flatMap fun l => l.filter (· ≠ []) := by
      intro l; rw [byteFields, List.flatMap_map]
    rw [this, this, he]
  refine Option.ext fun bs => ?_
  rw [hex_spec h, hex_spec h', e]

example : parseWiresharkHex (c! "0000 01\n0001 02") = some [1, 2] ∧ parseWiresharkHex (c! "x 01\n 02") = some [1, 2] := ⟨rfl, rfl⟩

/-! ### C60: UTF-8 -/

/-- **C60.**  The text that the lexer sees is the one reading of the bytes: each encoded character as itself, and U+FFFD for each
byte at which no encoded character starts. -/
theorem C60_reading (bs : List UInt8) (s : Str) : ReadAs bs s ↔ s = decodeUtf8 bs :=
  ⟨read_unique, fun h => h ▸ read_spec bs⟩

/-- **C60.**  Encoding a text and reading it gives the text back. -/
theorem C60_round_trip (s : Str) : decodeUtf8 (utf8 s) = s := by
  induction s with
  | nil => rfl
  | cons c s ih =>
    rw [utf8, List.flatMap_cons, decodeUtf8, decodeFrom_char]
    exact congrArg _ ih

/-- Characters of one to four bytes; a lone continuation byte; a sequence cut short; an overlong one. -/
example : utf8 [Char.ofNat 0x41, Char.ofNat 0xE9, Char.ofNat 0x20AC, Char.ofNat 0x1F600] = [0x41, 0xC3, 0xA9, 0xE2, 0x82, 0xAC, 0xF0, 0x9F, 0x98, 0x80] ∧
    decodeUtf8 [0x41, 0x80, 0xE2, 0x82, 0x41, 0xC0, 0x80] =
      [Char.ofNat 0x41, Char.ofNat 0xFFFD, Char.ofNat 0xFFFD, Char.ofNat 0xFFFD, Char.ofNat 0x41, Char.ofNat 0xFFFD, Char.ofNat 0xFFFD] :=
  ⟨by decide, by decide⟩

/-- **C60.**  Parsing the encoding of a text is parsing the text. -/
theorem C60_parse (u : Unicode) (s : Str) (fin : ReadEnd) : parseBytes u (utf8 s) fin = parseStream u s fin := by
  rw [parseBytes, C60_round_trip]

/-! ### C61: ParseFile -/

/-- **C61.**  `ParseFile` (parser.go:32-39) fails with the error of `os.Open` exactly if the file cannot be opened, and otherwise is
`ParseStream` of the contents. -/
theorem C61_parse_file (u : Unicode) (f : Files) (name : Str) :
    (parseFile u f name = none ↔ ∀ i, f.inode name = some i → f.readable i = false) ∧
    ∀ i, f.inode name = some i → f.readable i = true → parseFile u f name = some (parseStream u (decodeUtf8 (f.content i)) (f.readEnd i)) := by
  unfold parseFile osOpen
  cases h : f.inode name with
  | none => simp
  | some i => cases hr : f.readable i <;> simp [hr, parseBytes]

/-! ### C56–C58: the command -/

/-- A file system with the input `in` and, as inode 1, the output `out`. -/
def exampleFiles (input output : List UInt8) : Files where
  inode p := if p = c! "in" then some 0 else if p = c! "out" then some 1 else none
  content i := if i = 0 then input else if i = 1 then output else []
  readable _ := true
  writable _ := true
  truncatable _ := true
  creatable _ := true
  fresh := 2
  readEnd _ := .eof

theorem exampleFiles_fresh (i o : List UInt8) : Fresh (exampleFiles i o) := by
  intro p j h
  simp only [exampleFiles] at h ⊢
  split at h
  · simp at h; omega
  · split at h
    · simp at h; omega
    · cases h

/-- **C56**, as stated: a run that fails leaves every file that exists as it is. -/
def C56_statement : Prop := ∀ (u : Casing) (print : Printer) (fuel : Nat) (f : Files) (stdin : List UInt8 × ReadEnd) (args : List Str),
  Fresh f → (∃ c, c ≠ 0 ∧ (runMain u print fuel f stdin args).status = .exit c) →
  ∀ p i, f.inode p = some i → (runMain u print fuel f stdin args).files.content i = f.content i

/-- The parse of nothing fails. -/
theorem parse_empty : ∃ l m, parseBytes asciiUnicode [] .eof = .err l m := by
  have : (match parseBytes asciiUnicode [] .eof with | .err _ _ => true | _ => false) = true := by decide +kernel
  cases h : parseBytes asciiUnicode [] .eof with
  | err l m => exact ⟨l, m, rfl⟩
  | ok => rw [h] at this; cases this
  | nilModule => rw [h] at this; cases this
  | panic => rw [h] at this; cases this
  | hang => rw [h] at this; cases this
  | outOfFuel => rw [h] at this; cases this

/-- **C56 is false**: the output is emptied before the input is read (main.go:67-69). -/
theorem C56_false : ¬ C56_statement := by
  intro h
  obtain ⟨l, m, hp⟩ := parse_empty
  have hrun : runMain asciiCasing (fun _ => ([], false)) 0 (exampleFiles [] [1, 2, 3]) ([], .eof) [c! "in", c! "out"] =
      ⟨(exampleFiles [] [1, 2, 3]).write 1 [], [], .exit 1⟩ := by
    have hf : parseFlags [c! "in", c! "out"] = .ok { inputName := c! "in", outputName := c! "out" } := rfl
    rw [runMain, hf]
    have ho : openChannels (exampleFiles [] [1, 2, 3]) (c! "in") (c! "out") =
        ((exampleFiles [] [1, 2, 3]).write 1 [], some (.file 0, .file 1)) := rfl
    simp only [runWith, ho]
    have hc : readChannel ((exampleFiles [] [1, 2, 3]).write 1 []) ([], .eof) (.file 0) = ([], .eof) := rfl
    rw [hc]
    have : asciiCasing.toUnicode = asciiUnicode := rfl
    rw [this, hp]
  have := h asciiCasing (fun _ => ([], false)) 0 (exampleFiles [] [1, 2, 3]) ([], .eof) [c! "in", c! "out"] (exampleFiles_fresh _ _)
    ⟨1, by decide, by rw [hrun]⟩ (c! "out") 1 rfl
  rw [hrun] at this
  exact absurd this (by decide)

/-- **C56, partial**: a run that stops before it reads the input — because the arguments are wrong, or the input or the output
cannot be opened — leaves all files that exist as they are, and writes nothing. -/
theorem C56_partial (u : Casing) (print : Printer) (fuel : Nat) (f : Files) (stdin : List UInt8 × ReadEnd) (args : List Str)
    (hf : Fresh f) (h : ∀ j, Asks args j → ¬ (CanRead f j.input ∧ CanWrite f j.output)) :
    (runMain u print fuel f stdin args).stdout = [] ∧
    ∀ p i, f.inode p = some i → (runMain u print fuel f stdin args).files.content i = f.content i := by
  rcases parseFlags_cases args with ⟨j, hj, e⟩ | ⟨_, _, _, _, e⟩ | ⟨_, e⟩ | ⟨_, e⟩
  · rw [runMain, e]
    rcases openChannels_cases f j with ⟨_, h2, h3⟩ | ⟨h1, h2, _⟩
    · have : openChannels f (jobFlags j).inputName (jobFlags j).outputName = ((openChannels f j.input j.output).1, none) :=
        Prod.ext rfl h2
      simp only [runWith, this]
      exact ⟨trivial, fun p i hp => h3 i (hf p i hp)⟩
    · exact (h j hj ⟨h1, h2⟩).elim
  all_goals
    rw [runMain, e]
    exact ⟨rfl, fun _ _ _ => rfl⟩

/-- In every other case the output is emptied: it keeps nothing of what it held. -/
theorem C56_emptied (u : Casing) (print : Printer) (fuel : Nat) (f : Files) (stdin : List UInt8 × ReadEnd) (args : List Str) (j : Job)
    (hj : Asks args j) (h1 : CanRead f j.input) (h2 : CanWrite f j.output) (ho : j.output ≠ []) :
    (∃ text, (∃ file, text = (print file).1) ∧ (runMain u print fuel f stdin args).files.content (target f j.output) = utf8 text) ∨
    (runMain u print fuel f stdin args).files.content (target f j.output) = [] := by
  rcases parseFlags_cases args with ⟨j', hj', e⟩ | ⟨o, ops, hc, hlen, _⟩ | ⟨hc, _⟩ | ⟨hc, _⟩
  · cases asks_unique hj hj'
    rcases openChannels_cases f j with ⟨h, _⟩ | ⟨_, _, f1, ic, oc, hoc, _, hout⟩
    · exact (h ⟨h1, h2⟩).elim
    · rcases hout with ⟨h, _⟩ | ⟨_, rfl, _, _, hempty, _⟩
      · exact (ho h).elim
      · have hoc' : openChannels f (jobFlags j).inputName (jobFlags j).outputName = (f1, some (ic, .file (target f j.output))) := hoc
        rw [runMain, e]
        simp only [runWith, hoc']
        split
        · next m hm =>
          split
          · right; exact hempty
          · next g hg =>
            simp only [writeOut, Files.write, if_true]
            unfold generate at hg
            split at hg
            · cases hg
            · cases hg; right; rfl
            · next file _ => cases hg; left; exact ⟨_, ⟨file, rfl⟩, rfl⟩
        · right; exact hempty
        · right; exact hempty
  · obtain ⟨ops', hc', hl, _⟩ := hj
    have := commandLine_unique hc hc'
    cases this
    omega
  · obtain ⟨ops', hc', hl, _⟩ := hj
    cases commandLine_unique hc hc'
  · obtain ⟨ops', hc', hl, _⟩ := hj
    cases commandLine_unique hc hc'

/-- What a run is, given the job. -/
theorem run_cases (u : Casing) (print : Printer) (fuel : Nat) (f : Files) (stdin : List UInt8 × ReadEnd) (args : List Str) (j : Job)
    (hj : Asks args j) :
    (¬ (CanRead f j.input ∧ CanWrite f j.output) ∧ (runMain u print fuel f stdin args).status = .exit 1) ∨
    (CanRead f j.input ∧ CanWrite f j.output ∧ ∃ bs fin f1, Source f stdin j bs fin ∧ (∀ bs' fin', Source f stdin j bs' fin' → bs' = bs ∧ fin' = fin) ∧
      (∀ i, (j.output = [] ∨ i ≠ target f j.output) → f1.content i = f.content i) ∧
      (j.output ≠ [] → f1.content (target f j.output) = [] ∧ f1.inode j.output = some (target f j.output)) ∧
      (∀ p, p ≠ j.output → f1.inode p = f.inode p) ∧ (j.output = [] → f1 = f) ∧
      runMain u print fuel f stdin args =
        match parseBytes u.toUnicode bs fin with
        | .ok m =>
          match generate u print fuel (newCodeGenerator ⟨j.options.package, j.options.repr⟩) m with
          | none => ⟨f1, [], .crash⟩
          | some g => ⟨if j.output = [] then f1 else f1.write (target f j.output) (utf8 g.written), if j.output = [] then utf8 g.written else [],
              .exit (if g.error.isSome then 1 else 0)⟩
        | .err _ _ => ⟨f1, [], .exit 1⟩
        | _ => ⟨f1, [], .crash⟩) := by
  rcases parseFlags_cases args with ⟨j', hj', e⟩ | ⟨o, ops, hc, hlen, _⟩ | ⟨hc, _⟩ | ⟨hc, _⟩
  · cases asks_unique hj hj'
    rcases openChannels_cases f j with ⟨h, hn, _⟩ | ⟨h1, h2, f1, ic, oc, hoc, hsrc, hout⟩
    · left
      refine ⟨h, ?_⟩
      have : openChannels f (jobFlags j).inputName (jobFlags j).outputName = ((openChannels f j.input j.output).1, none) :=
        Prod.ext rfl hn
      rw [runMain, e]
      simp only [runWith, this]
    · right
      have hoc' : openChannels f (jobFlags j).inputName (jobFlags j).outputName = (f1, some (ic, oc)) := hoc
      obtain ⟨bs, fin, hbs⟩ : ∃ bs fin, readChannel f1 stdin ic = (bs, fin) := ⟨_, _, rfl⟩
      refine ⟨h1, h2, bs, fin, f1, (hsrc stdin bs fin).2 hbs, ?_, ?_, ?_, ?_, ?_, ?_⟩
      · intro bs' fin' h'
        have := (hsrc stdin bs' fin').1 h'
        rw [hbs] at this
        simp only [Prod.mk.injEq] at this
        exact ⟨this.1.symm, this.2.symm⟩
      · rintro i hi
        rcases hout with ⟨_, _, rfl⟩ | ⟨hne, _, _, _, _, h6⟩
        · rfl
        · rcases hi with hi | hi
          · exact (hne hi).elim
          · exact h6 i hi
      · intro hne
        rcases hout with ⟨h, _⟩ | ⟨_, _, h3, _, h5, _⟩
        · exact (hne h).elim
        · exact ⟨h5, h3⟩
      · intro p hp
        rcases hout with ⟨_, _, rfl⟩ | ⟨_, _, _, h4, _⟩
        · rfl
        · exact h4 p hp
      · intro h
        rcases hout with ⟨_, _, rfl⟩ | ⟨hne, _⟩
        · rfl
        · exact (hne h).elim
      · rw [runMain, e]
        simp only [runWith, hoc']
        rw [hbs]
        dsimp only
        cases parseBytes u.toUnicode bs fin with
        | ok m =>
          dsimp only
          have : (jobFlags j).packageName = j.options.package ∧ (jobFlags j).defaultIntRepr = j.options.repr := ⟨rfl, rfl⟩
          rw [this.1, this.2]
          cases generate u print fuel (newCodeGenerator ⟨j.options.package, j.options.repr⟩) m with
          | none => rfl
          | some g =>
            rcases hout with ⟨h, rfl, _⟩ | ⟨h, rfl, _⟩
            · simp [writeOut, h]
            · simp [writeOut, h]
        | err l m => rfl
        | nilModule => rfl
        | panic => rfl
        | hang => rfl
        | outOfFuel => rfl
  · obtain ⟨ops', hc', hl, _⟩ := hj
    have := commandLine_unique hc hc'
    cases this
    omega
  · obtain ⟨ops', hc', hl, _⟩ := hj
    cases commandLine_unique hc hc'
  · obtain ⟨ops', hc', hl, _⟩ := hj
    cases commandLine_unique hc hc'

/-- **C57.**  If the command is asked for a job and exits with status 0, then the input parsed, a file was generated, and its
printed text is what standard output, or the output file, holds; no other contents and no other paths changed. -/
theorem C57_success (u : Casing) (print : Printer) (fuel : Nat) (f : Files) (stdin : List UInt8 × ReadEnd) (args : List Str) (j : Job)
    (hj : Asks args j) (h : (runMain u print fuel f stdin args).status = .exit 0) :
    ∃ bs fin m file, Source f stdin j bs fin ∧ parseBytes u.toUnicode bs fin = .ok m ∧
      generateFile u fuel (newCodeGenerator ⟨j.options.package, j.options.repr⟩) m = some (.ok file) ∧ (print file).2 = false ∧
      (j.output = [] → (runMain u print fuel f stdin args).stdout = utf8 (print file).1 ∧ (runMain u print fuel f stdin args).files = f) ∧
      (j.output ≠ [] → (runMain u print fuel f stdin args).stdout = [] ∧
        (runMain u print fuel f stdin args).files.inode j.output = some (target f j.output) ∧
        (runMain u print fuel f stdin args).files.content (target f j.output) = utf8 (print file).1) ∧
      (∀ i, i ≠ target f j.output → (runMain u print fuel f stdin args).files.content i = f.content i) ∧
      (∀ p, p ≠ j.output → (runMain u print fuel f stdin args).files.inode p = f.inode p) := by
  rcases run_cases u print fuel f stdin args j hj with ⟨_, h1⟩ | ⟨_, _, bs, fin, f1, hs, _, hc, hn, hpth, hsame, e⟩
  · rw [h1] at h; cases h
  · rw [e] at h ⊢
    cases hp : parseBytes u.toUnicode bs fin with
    | ok m =>
      rw [hp] at h
      dsimp only at h ⊢
      cases hg : generate u print fuel (newCodeGenerator ⟨j.options.package, j.options.repr⟩) m with
      | none => rw [hg] at h; cases h
      | some g =>
        rw [hg] at h
        dsimp only at h ⊢
        have herr : g.error = none := by
          cases hge : g.error with
          | none => rfl
          | some x => rw [hge] at h; simp at h
        unfold generate at hg
        split at hg
        · cases hg
        · cases hg; cases herr
        · next file hfile =>
          cases hg
          refine ⟨bs, fin, m, file, hs, hp, hfile, ?_, ?_, ?_, ?_, ?_⟩
          · dsimp only at herr
            split at herr
            · cases herr
            · next hb => simpa using hb
          · intro ho; rw [if_pos ho, if_pos ho]; exact ⟨rfl, hsame ho⟩
          · intro ho
            rw [if_neg ho, if_neg ho]
            exact ⟨rfl, (hn ho).2, by simp [Files.write]⟩
          · intro i hi
            by_cases ho : j.output = []
            · rw [if_pos ho]; exact hc i (.inl ho)
            · rw [if_neg ho]; simp only [Files.write, hi, if_false]; exact hc i (.inr hi)
          · intro p hp
            by_cases ho : j.output = []
            · rw [if_pos ho]; exact hpth p hp
            · rw [if_neg ho]; exact hpth p hp
    | err l m => rw [hp] at h; cases h
    | nilModule => rw [hp] at h; cases h
    | panic => rw [hp] at h; cases h
    | hang => rw [hp] at h; cases h
    | outOfFuel => rw [hp] at h; cases h

/-- **C58.**  The command exits with status 1 exactly if there are more than two operands, or a file cannot be opened, or the input
does not parse, or generation fails. -/
theorem C58_status_one (u : Casing) (print : Printer) (fuel : Nat) (f : Files) (stdin : List UInt8 × ReadEnd) (args : List Str) :
    (runMain u print fuel f stdin args).status = .exit 1 ↔
      (∃ o ops, CommandLine {} args (.run o ops) ∧ 2 < ops.length) ∨
      ∃ j, Asks args j ∧ (¬ CanRead f j.input ∨ ¬ CanWrite f j.output ∨ ∃ bs fin, Source f stdin j bs fin ∧
        ((∃ line msg, parseBytes u.toUnicode bs fin = .err line msg) ∨
         ∃ m g, parseBytes u.toUnicode bs fin = .ok m ∧
           generate u print fuel (newCodeGenerator ⟨j.options.package, j.options.repr⟩) m = some g ∧ g.error ≠ none)) := by
  rcases parseFlags_cases args with ⟨j, hj, e⟩ | ⟨o, ops, hc, hlen, e⟩ | ⟨hc, e⟩ | ⟨hc, e⟩
  · have hnot : ¬ ∃ o ops, CommandLine {} args (.run o ops) ∧ 2 < ops.length := by
      rintro ⟨o, ops, hc, hl⟩
      obtain ⟨ops', hc', hl', _⟩ := hj
      cases commandLine_unique hc hc'
      omega
    have hj1 : ∀ P : Job → Prop, (∃ j, Asks args j ∧ P j) ↔ P j :=
      fun P => ⟨fun ⟨j', h1, h2⟩ => asks_unique h1 hj ▸ h2, fun h => ⟨j, hj, h⟩⟩
    rw [hj1]
    simp only [hnot, false_or]
    rcases run_cases u print fuel f stdin args j hj with ⟨h0, h1⟩ | ⟨h1, h2, bs, fin, f1, hs, hsu, _, _, _, _, er⟩
    · rw [h1]
      simp only [true_iff]
      by_cases hr : CanRead f j.input
      · right; left; exact fun hw => h0 ⟨hr, hw⟩
      · left; exact hr
    · have hs1 : ∀ P : List UInt8 → ReadEnd → Prop, (∃ bs fin, Source f stdin j bs fin ∧ P bs fin) ↔ P bs fin := by
        intro P
        refine ⟨fun ⟨bs', fin', h3, h4⟩ => ?_, fun h => ⟨bs, fin, hs, h⟩⟩
        obtain ⟨rfl, rfl⟩ := hsu _ _ h3
        exact h4
      rw [hs1, er]
      simp only [h1, h2, not_true_eq_false, false_or]
      cases hp : parseBytes u.toUnicode bs fin with
      | ok m =>
        simp only [reduceCtorEq, exists_false, false_or, ParseResult.ok.injEq, exists_and_left]
        cases hg : generate u print fuel (newCodeGenerator ⟨j.options.package, j.options.repr⟩) m with
        | none => simp [hg]
        | some g => cases hge : g.error <;> simp [hg, hge]
      | err l m => simp
      | nilModule => simp
      | panic => simp
      | hang => simp
      | outOfFuel => simp
  · rw [runMain, e]
    simp only [true_iff]
    exact .inl ⟨o, ops, hc, hlen⟩
  all_goals
    rw [runMain, e]
    constructor
    · intro h; simp at h
    · rintro (⟨o, ops, hc', _⟩ | ⟨j, ⟨ops, hc', _⟩, _⟩) <;> cases commandLine_unique hc hc'

/-- **C58.**  It exits with status 2 exactly if the options are wrong, and if help is asked for it exits with status 0; every
command line is one of these or asks to run. -/
theorem C58_flags (u : Casing) (print : Printer) (fuel : Nat) (f : Files) (stdin : List UInt8 × ReadEnd) (args : List Str) :
    ((runMain u print fuel f stdin args).status = .exit 2 ↔ CommandLine {} args .bad) ∧
    (CommandLine {} args .help → runMain u print fuel f stdin args = ⟨f, [], .exit 0⟩) ∧
    (∃ m, CommandLine {} args m ∧ ∀ m', CommandLine {} args m' → m' = m) := by
  refine ⟨?_, ?_, ?_⟩
  · rcases parseFlags_cases args with ⟨j, hj, e⟩ | ⟨o, ops, hc, hlen, e⟩ | ⟨hc, e⟩ | ⟨hc, e⟩
    · have hnb : ¬ CommandLine {} args .bad := by
        intro hb
        obtain ⟨ops', hc', _⟩ := hj
        cases commandLine_unique hb hc'
      simp only [hnb, iff_false]
      rcases run_cases u print fuel f stdin args j hj with ⟨_, h1⟩ | ⟨_, _, bs, fin, f1, _, _, _, _, _, _, er⟩
      · rw [h1]; simp
      · rw [er]
        cases parseBytes u.toUnicode bs fin with
        | ok m =>
          dsimp only
          cases generate u print fuel (newCodeGenerator ⟨j.options.package, j.options.repr⟩) m with
          | none => simp
          | some g => simp only [Status.exit.injEq]; split <;> omega
        | err l m => simp
        | nilModule => simp
        | panic => simp
        | hang => simp
        | outOfFuel => simp
    · rw [runMain, e]
      simp only [Status.exit.injEq, OfNat.one_ne_ofNat, false_iff]
      intro hb; cases commandLine_unique hc hb
    · rw [runMain, e]
      simp only [Status.exit.injEq, OfNat.zero_ne_ofNat, false_iff]
      intro hb; cases commandLine_unique hc hb
    · rw [runMain, e]
      simp [hc]
  · intro hh
    rcases parseFlags_cases args with ⟨j, hj, e⟩ | ⟨o, ops, hc, hlen, e⟩ | ⟨hc, e⟩ | ⟨hc, e⟩
    · obtain ⟨ops', hc', _⟩ := hj
      cases commandLine_unique hh hc'
    · cases commandLine_unique hh hc
    · rw [runMain, e]
    · cases commandLine_unique hh hc
  · obtain ⟨m, hm⟩ := commandLine_total args {}
    exact ⟨m, hm, fun m' h => commandLine_unique h hm⟩

/-- Options in their spellings, operands after them, and lines that are wrong or ask for help. -/
example : CommandLine {} [c! "-package=p", c! "--default-integer-repr", c! "big.Int", c! "in", c! "-x"] (.run ⟨c! "p", c! "big.Int"⟩ [c! "in", c! "-x"]) ∧
    CommandLine {} [c! "--", c! "-package"] (.run {} [c! "-package"]) ∧ CommandLine {} [c! "-h=1"] .help ∧
    CommandLine {} [c! "-package"] .bad ∧ CommandLine {} [c! "---package=x"] .bad ∧ CommandLine {} [c! "-x"] .bad := by
  refine ⟨?_, ?_, ?_, ?_, ?_, ?_⟩ <;> exact (flagLoop_iff _ _).2 rfl

/-- Three operands. -/
example : (runMain asciiCasing (fun _ => ([], false)) 0 (exampleFiles [] []) ([], .eof) [c! "a", c! "b", c! "c"]).status = .exit 1 := rfl

/-- A run that succeeds: the module of `exampleText` is written to standard output by a printer that prints the package name. -/
def exampleText : Str := c! "M DEFINITIONS ::= BEGIN A ::= BOOLEAN END"

/-- What the example run gives. -/
theorem example_run : (runMain asciiCasing (fun f => (f.package, false)) 10 (exampleFiles (utf8 exampleText) []) ([], .eof) [c! "-package", c! "pkg", c! "in"]).status = .exit 0 ∧
    (runMain asciiCasing (fun f => (f.package, false)) 10 (exampleFiles (utf8 exampleText) []) ([], .eof) [c! "-package", c! "pkg", c! "in"]).stdout = utf8 (c! "pkg") := by
  decide +kernel

/-! ### C59: MarshalToFile -/

/-- **C59.**  `MarshalToFile` (marshal.go:9-19) changes nothing if marshalling fails; if it returns no error the file holds exactly
the marshalled bytes, and in no case do other contents or paths change. -/
theorem C59_marshal (f : Files) (data : Option (List UInt8)) (path : Str) (written : Option Nat) :
    ((marshalToFile f data path written).2 = .marshalError ↔ data = none) ∧
    (data = none → (marshalToFile f data path written).1 = f) ∧
    ((marshalToFile f data path written).2 = .ok → ∃ bs, data = some bs ∧
      (marshalToFile f data path written).1.inode path = some (target f path) ∧
      (marshalToFile f data path written).1.content (target f path) = bs) ∧
    (∀ i, i ≠ target f path → (marshalToFile f data path written).1.content i = f.content i) ∧
    (∀ p, p ≠ path → (marshalToFile f data path written).1.inode p = f.inode p) := by
  cases data with
  | none => simp [marshalToFile]
  | some bs =>
    unfold marshalToFile osOpenWrite
    cases hi : f.inode path with
    | some i =>
      dsimp only
      cases hw : f.writable i with
      | false => simp
      | true =>
        simp only [if_true, osTruncate]
        cases ht : f.truncatable i with
        | false => simp
        | true =>
          cases written with
          | none => simp +contextual [Files.write, target, hi]
          | some n => simp +contextual [Files.write, target, hi]
    | none =>
      dsimp only
      cases hw : f.creatable path with
      | false => simp
      | true =>
        simp only [if_true, osTruncate]
        cases ht : f.truncatable f.fresh with
        | false => simp +contextual [target, hi]
        | true =>
          cases written with
          | none => simp +contextual [Files.write, target, hi]
          | some n => simp +contextual [Files.write, target, hi]

example : (marshalToFile (exampleFiles [] [9]) (some [1, 2]) (c! "out") none).1.content 1 = [1, 2] ∧
    (marshalToFile (exampleFiles [] [9]) none (c! "out") none).1.content 1 = [9] := ⟨rfl, rfl⟩

/-! ### C62: ws2bin -/

/-- **C62.**  ws2bin (cmd/ws2bin/main.go:10-20) exits with status 1 and writes nothing exactly if standard input cannot be read to its
end; otherwise it writes the bytes of the dump and exits with status 0, or panics if a field is malformed. -/
theorem C62_ws2bin (f : Files) (bs : List UInt8) (fin : ReadEnd) :
    ((runWs2bin f (bs, fin)).status = .exit 1 ↔ fin = .fail) ∧ ((runWs2bin f (bs, fin)).status ≠ .exit 0 → (runWs2bin f (bs, fin)).stdout = []) ∧
    ((runWs2bin f (bs, fin)).files = f) ∧
    ∀ lines, TextFields (bs.map fun b => Char.ofNat b.toNat) lines → fin = .eof →
      ((runWs2bin f (bs, fin)).status = .exit 0 ↔ ∀ x ∈ byteFields lines, ∃ b, FieldByte x b) ∧
      ((runWs2bin f (bs, fin)).status = .exit 0 → List.Forall₂ FieldByte (byteFields lines) (runWs2bin f (bs, fin)).stdout) := by
  cases fin with
  | fail => simp [runWs2bin]
  | eof =>
    simp only [runWs2bin]
    cases h : parseWiresharkHex (bs.map fun b => Char.ofNat b.toNat) with
    | none =>
      simp only [reduceCtorEq, not_false_eq_true, forall_const, true_and, false_iff, IsEmpty.forall_iff, and_true, ne_eq]
      intro lines hl hall
      obtain ⟨x, hx, hn⟩ := (C54_panics _ _ hl).1 h
      obtain ⟨b, y, h1, h2, h3, _⟩ := hall x hx
      exact hn ⟨y, h1, h2, h3⟩
    | some out =>
      simp only [Status.exit.injEq, zero_ne_one, reduceCtorEq, not_true_eq_false, IsEmpty.forall_iff, true_and, true_iff, forall_const, ne_eq]
      intro lines hl
      have hf := (C54_value _ _ hl _).1 h
      refine ⟨?_, hf⟩
      intro x hx
      clear h hl
      generalize byteFields lines = l at hf hx
      induction hf with
      | nil => cases hx
      | cons h1 _ ih =>
        rcases List.mem_cons.1 hx with rfl | hx
        · exact ⟨_, h1⟩
        · exact ih hx

example : (runWs2bin (exampleFiles [] []) ((c! "0 ff 01").map (fun c => UInt8.ofNat c.toNat), .eof)).stdout = [0xff, 1] := rfl

end Asn1go.Props
