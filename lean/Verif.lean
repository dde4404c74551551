import Verif.Basic
import Verif.Model.Types
import Verif.Model.Format
import Verif.Model.Ast
import Verif.Model.Context
import Verif.Model.Write
import Verif.Model.SetPairs
import Verif.Model.Construct
import Verif.Model.Lexer
import Verif.Model.ParseJoin
import Verif.Model.Convert
import Verif.Model.Builder
import Verif.Model.Api
import Verif.Model.Runtime
import Verif.Tests.Harness
import Verif.Tests.Select1
import Verif.Tests.Select2
import Verif.Tests.Others
import Verif.Spec.Layout
import Verif.Spec.Substitute
import Verif.Spec.Embed
import Verif.Lemmas.Trace
import Verif.Lemmas.Denote
import Verif.Lemmas.Contexts
import Verif.Lemmas.Substitute
import Verif.Lemmas.Embed
import Verif.Spec.Weave
import Verif.Lemmas.Weave
import Verif.Spec.Accumulate
import Verif.Spec.Encode
import Verif.Props.Encode
import Verif.Props.EncodeGiven
import Verif.Props.Accumulate
import Verif.Props.Sample
import Verif.Props.Placeholders
import Verif.Spec.Read
import Verif.Lemmas.Quote
import Verif.Lemmas.Number
import Verif.Spec.Calendar
import Verif.Spec.Valuer
import Verif.Lemmas.Calendar
import Verif.Lemmas.Timestamp
import Verif.Lemmas.Literal
import Verif.Props.Format
import Verif.Spec.Lex
import Verif.Spec.Condition
import Verif.Spec.JoinText
import Verif.Spec.OnTree
import Verif.Lemmas.Lexer
import Verif.Lemmas.Condition
import Verif.Lemmas.JoinText
import Verif.Lemmas.JoinCond
import Verif.Lemmas.CondText
import Verif.Props.Lexer
import Verif.Props.JoinText
import Verif.Spec.Compare
import Verif.Lemmas.RawText
import Verif.Lemmas.Compare
import Verif.Props.Compare
import Verif.Props.Where
import Verif.Spec.Clauses
import Verif.Spec.Set
import Verif.Lemmas.Clauses
import Verif.Lemmas.Complete
import Verif.Lemmas.Set
import Verif.Props.Clauses
import Verif.Spec.Argument
import Verif.Lemmas.Argument
import Verif.Props.Argument
import Verif.Spec.Calls
import Verif.Lemmas.Calls
import Verif.Props.Calls
import Verif.Props.CallOrder
import Verif.Props.QuoteExact
import Verif.Lemmas.QuoteExact
import Verif.Spec.Pairs
import Verif.Lemmas.Pairs
import Verif.Props.Set
import Verif.Spec.Insert
import Verif.Lemmas.Insert
import Verif.Props.Injection
import Verif.Props.Insert
import Verif.Spec.Scan
import Verif.Lemmas.Scan
import Verif.Lemmas.ScanLayout
import Verif.Lemmas.ScanText
import Verif.Props.Scan
import Verif.Spec.Where
import Verif.Lemmas.Where
import Verif.Model.Heap
import Verif.Spec.History
import Verif.Spec.Heap
import Verif.Lemmas.Slices
import Verif.Lemmas.Columns
import Verif.Lemmas.History
import Verif.Lemmas.HeapSelect
import Verif.Lemmas.HeapPairs
import Verif.Lemmas.HeapUpdate
import Verif.Lemmas.HeapInsert
import Verif.Lemmas.HeapRender
import Verif.Props.Heap
import Verif.Spec.Tokens
import Verif.Lemmas.Tokens
import Verif.Lemmas.TokenText
import Verif.Props.Tokens
import Verif.Props.Transcript
import Verif.Spec.Sql
import Verif.Spec.Meaning
import Verif.Lemmas.Lexemes
import Verif.Lemmas.SqlParts
import Verif.Lemmas.SqlClauses
import Verif.Lemmas.SqlSelect
import Verif.Lemmas.SqlRead
import Verif.Lemmas.SqlStmts
import Verif.Lemmas.SqlTame
import Verif.Props.Sql
import Verif.Props.Api
import Verif.Spec.Program
import Verif.Lemmas.Program
import Verif.Lemmas.ProgramSelect
import Verif.Lemmas.ProgramStmt
import Verif.Props.Program
import Verif.Spec.Machine
import Verif.Lemmas.Machine
import Verif.Lemmas.MachineSet
import Verif.Lemmas.MachineStmt
import Verif.Props.Machine
import Verif.Spec.Readback
import Verif.Lemmas.SqlClean
import Verif.Lemmas.PlainMap
import Verif.Lemmas.Readback
import Verif.Props.Readback
import Verif.Spec.JoinGrammar
import Verif.Lemmas.JoinGrammar
import Verif.Spec.Utf8
import Verif.Spec.Unquote
import Verif.Model.Utf8
import Verif.Lemmas.Utf8
import Verif.Lemmas.Utf8Text
import Verif.Lemmas.Unquote
import Verif.Props.Utf8
import Verif.Spec.Float
import Verif.Lemmas.Float
import Verif.Props.Float
import Verif.Spec.Slice
import Verif.Lemmas.Slice
import Verif.Props.Slice
import Verif.Model.Caller
import Verif.Spec.Caller
import Verif.Lemmas.Caller
import Verif.Props.Caller
import Verif.Spec.Shared
import Verif.Lemmas.Shared
import Verif.Props.Shared
import Verif.Spec.Rows
import Verif.Spec.Script
import Verif.Spec.Fork
import Verif.Lemmas.Rows
import Verif.Props.Rows
import Verif.Props.Script
import Verif.Props.MapOrder
import Verif.Lemmas.Fork
import Verif.Lemmas.ForkInsert
import Verif.Props.Fork
import Verif.Props.ForkInsert
import Verif.Props.ForkUpdate
import Verif.Lemmas.Determined
import Verif.Props.Determined
import Verif.Spec.Shape
import Verif.Lemmas.Shape
import Verif.Props.Shape
import Verif.Spec.Panic
import Verif.Lemmas.Panic
import Verif.Spec.Fault
import Verif.Lemmas.Fault
import Verif.Lemmas.PanicCalls
import Verif.Props.Panic
import Verif.Spec.Portable
import Verif.Lemmas.Portable
import Verif.Props.Portable
import Verif.Model.Examples
import Verif.Spec.Examples
import Verif.Props.Examples
import Verif.Spec.Sqlx
import Verif.Lemmas.Keywords
import Verif.Lemmas.Sqlx
import Verif.Props.Sqlx
import Verif.Model.Concurrent
import Verif.Spec.Concurrent
import Verif.Lemmas.Concurrent
import Verif.Props.Concurrent
import Verif.Spec.Returning
import Verif.Lemmas.Returning
import Verif.Props.Returning
import Verif.Model.Derive
import Verif.Spec.Derive
import Verif.Lemmas.Derive
import Verif.Props.Derive
import Verif.Model.DeriveUpdate
import Verif.Spec.DeriveUpdate
import Verif.Lemmas.DeriveUpdate
import Verif.Lemmas.DeriveUpdateOne
import Verif.Props.DeriveUpdate
import Verif.Model.DeriveInsert
import Verif.Spec.DeriveInsert
import Verif.Lemmas.DeriveInsert
import Verif.Lemmas.DeriveInsertOne
import Verif.Props.DeriveInsert
