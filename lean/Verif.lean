import Verif.Model.Tokens
import Verif.Model.Lexer
import Verif.Model.Ast
import Verif.Model.Actions
import Verif.Model.Tables
import Verif.Model.Parser
import Verif.Spec.Lexical
import Verif.Spec.Tables
import Verif.Spec.Grammar
import Verif.Proofs.Lexer
import Verif.Proofs.Lex2
import Verif.Proofs.Lex3
import Verif.Proofs.Lex4
import Verif.Proofs.Lex5
import Verif.Proofs.Lex6
import Verif.Props.Lexer
import Verif.Proofs.LR.Cert
import Verif.Proofs.LR.Check
import Verif.Proofs.LR.MapLemmas
import Verif.Proofs.LR.Agree
import Verif.Spec.Tree
import Verif.Spec.Shape
import Verif.Proofs.LR.Decide
import Verif.Proofs.LR.Stack
import Verif.Proofs.LR.Inv
import Verif.Proofs.LR.Step
import Verif.Proofs.LR.Invert
import Verif.Proofs.LR.Result
import Verif.Proofs.LR.Simul
import Verif.Proofs.Shape
import Verif.Proofs.Tokenize
import Verif.Props.Parser
import Verif.Model.Codegen
import Verif.Spec.StructTag
import Verif.Spec.Codegen
import Verif.Spec.GoFile
import Verif.Proofs.Codegen.Basic
import Verif.Proofs.Codegen.Fuel
import Verif.Proofs.Codegen.Supported
import Verif.Proofs.Codegen.Names
import Verif.Proofs.Codegen.Numbers
import Verif.Proofs.Codegen.Tags
import Verif.Proofs.Codegen.Uses
import Verif.Proofs.Codegen.Body
import Verif.Proofs.Codegen.File
import Verif.Props.Codegen
import Verif.Model.Utf8
import Verif.Model.Dump
import Verif.Model.Commands
import Verif.Spec.Utf8
import Verif.Spec.Dump
import Verif.Spec.Commands
import Verif.Proofs.Tools.Utf8
import Verif.Proofs.Tools.Dump
import Verif.Proofs.Tools.Commands
import Verif.Props.Tools
import Verif.Model.WsTime
import Verif.Spec.Calendar
import Verif.Proofs.Tools.Calendar
import Verif.Proofs.Tools.WsTime
import Verif.Props.WsTime
import Verif.Spec.Preferred
import Verif.Proofs.LR.Machine
import Verif.Proofs.LR.Items
import Verif.Proofs.LR.ItemCheck
import Verif.Proofs.LR.Complete
import Verif.Proofs.LR.ReachCert
import Verif.Proofs.LR.ReachCheck
import Verif.Proofs.LR.Chosen
import Verif.Proofs.TreeCheck
import Verif.Props.Grammar
import Verif.Props.Pointers
import Verif.Props.Real
import Verif.Model.Real
import Verif.Proofs.Imports
import Verif.Proofs.LR.Plain
import Verif.Proofs.MapRel
import Verif.Proofs.Notation.Backward1
import Verif.Proofs.Notation.Backward2
import Verif.Proofs.Notation.Backward3
import Verif.Proofs.Notation.Forward1
import Verif.Proofs.Notation.Forward2
import Verif.Proofs.Notation.Forward3
import Verif.Proofs.Notation.Reads
import Verif.Proofs.Notation.Splits
import Verif.Proofs.Notation.Splits1
import Verif.Proofs.Real
import Verif.Props.Imports
import Verif.Props.Notation
import Verif.Spec.Imports
import Verif.Spec.Notation
import Verif.Spec.Real
import Verif.Spec.Uses
import Verif.Spec.Print
import Verif.Proofs.Print.Sound
import Verif.Proofs.Print.Shape
import Verif.Proofs.Print.Text
import Verif.Proofs.Print.Complete
import Verif.Props.Print
import Verif.Model.Message
import Verif.Model.Listing
import Verif.Proofs.Tables
import Verif.Proofs.LR.FinishCert
import Verif.Proofs.LR.Finish
import Verif.Proofs.LR.Expect
import Verif.Spec.Reads
import Verif.Proofs.Reads
import Verif.Proofs.LR.Prefix
import Verif.Proofs.LR.Suggest
import Verif.Props.Message
import Verif.Props.ReadError
import Verif.Spec.Exact
import Verif.Spec.Kept
import Verif.Proofs.LR.Parts
import Verif.Proofs.LR.Keep
import Verif.Proofs.LR.Memory
import Verif.Proofs.LR.Kept
import Verif.Props.Exact
import Verif.Spec.GoCheck
import Verif.Proofs.Codegen.Check
import Verif.Proofs.Codegen.Check2
import Verif.Props.Compile
import Verif.Spec.Names
import Verif.Proofs.Names
import Verif.Proofs.Names2
import Verif.Proofs.Ascii
import Verif.Props.Names
import Verif.Spec.GoValue
import Verif.Spec.Marshal
import Verif.Spec.Der
import Verif.Spec.Encodable
import Verif.Proofs.Encoding.Octets
import Verif.Proofs.Encoding.Octets2
import Verif.Proofs.Encoding.Typed
import Verif.Proofs.Encoding.Typed2
import Verif.Proofs.Encoding.Encode
import Verif.Proofs.Encoding.Encode2
import Verif.Proofs.Encoding.Encode3
import Verif.Proofs.Encoding.Write
import Verif.Proofs.Encoding.Write2
import Verif.Props.Encoding
import Verif.Props.Writing
import Verif.Props.Again
import Verif.Proofs.Decoding.Canon
import Verif.Proofs.Decoding.Canon2
import Verif.Proofs.Decoding.Determined
import Verif.Proofs.Decoding.Stand
import Verif.Proofs.Decoding.Exact
import Verif.Spec.Unmarshal
import Verif.Spec.Decodable
import Verif.Spec.Certain
import Verif.Proofs.Decoding.Octets
import Verif.Proofs.Decoding.Octets2
import Verif.Proofs.Decoding.Found
import Verif.Proofs.Decoding.Kinds
import Verif.Proofs.Decoding.Kinds2
import Verif.Proofs.Decoding.Read
import Verif.Proofs.Decoding.Read2
import Verif.Proofs.Decoding.Read3
import Verif.Proofs.Decoding.Unique
import Verif.Proofs.Decoding.Alternative
import Verif.Proofs.Decoding.Writes
import Verif.Proofs.Decoding.Told
import Verif.Props.Decoding
import Verif.Props.Choice
import Verif.Props.Raw
import Verif.Props.Interface
import Verif.Props.Never
import Verif.Spec.Written
import Verif.Proofs.Encoding.Lost
import Verif.Proofs.Encoding.Lost2
import Verif.Proofs.Encoding.Lost3
import Verif.Proofs.Encoding.Lost4
import Verif.Props.Lost
import Verif.Props.LostSet
import Verif.Props.Float
import Verif.Proofs.Codegen.GoDecide
import Verif.Tests.Basic
import Verif.Tests.Lexer
import Verif.Tests.Parser
import Verif.Proofs.Codegen.Order
import Verif.Props.Order
import Verif.Spec.Bare
import Verif.Proofs.Codegen.Bare
import Verif.Props.Bare
import Verif.Spec.Renamed
import Verif.Proofs.Codegen.Renamed
import Verif.Props.Renamed
import Verif.Spec.Integers
import Verif.Proofs.Codegen.Integers
import Verif.Props.Integers
import Verif.Props.Whole
import Verif.Tests.Codegen
import Verif.Tests.Texts
import Verif.Tests.Examples
import Verif.Tests.KerberosData
import Verif.Tests.Kerberos
import Verif.Tests.X509Data
import Verif.Tests.X509
import Verif.Spec.Reworded
import Verif.Proofs.LR.NewRules
import Verif.Proofs.LR.Reworded
import Verif.Proofs.LR.Codes
import Verif.Props.Reworded
import Verif.Props.Joined
import Verif.Props.Added
import Verif.Props.Versions
import Verif.Props.Stream
import Verif.Proofs.Codegen.Wire
import Verif.Props.Wire
import Verif.Props.IntWire
import Verif.Props.Part
import Verif.Props.PartValues
import Verif.Props.Canonical
import Verif.Props.ReadValue
import Verif.Props.DerCheck
import Verif.Props.NamesDecide
import Verif.Props.EncodeDecide
import Verif.Props.Kerberos
