# Formal model of ulule/loukoum — design

The subject is the Go query builder in `/repo` (read as text, never run).  The
model and proofs are a Lake project in `/verif/lean`, Lean 4.33.0, Mathlib
modules imported one at a time.

Sections: 1 trusted base, 2 what is modelled, 3 Go facts relied on, 4 what is
not modelled, 5 specifications, 6 proof architecture, 7 properties, 8 what was
found to be false, 9 axioms of every theorem, 10 testing of the theorems.

## 1. Trusted base

* Lean's kernel.
* Axioms: at most `propext`, `Classical.choice`, `Quot.sound`; section 9 lists
  them for every theorem named in `MANIFEST.json`.  No axiom is added, no
  `sorry`, `admit`, `native_decide`, `bv_decide`.
* The correspondence between the Go text and the Lean definitions.  It is by
  inspection: every model definition cites the file and lines it transcribes.
  `Verif/Tests/*.lean` re-state expectations of the repository's own test-suite
  as kernel-checked examples on the model (tests of the model, not proofs of
  properties).
* The Go facts listed in section 3.
* The specifications of section 5, which are meant to be read: a theorem says
  what it says only as far as they do.

## 2. What is modelled

| Go | Lean module |
|---|---|
| `types/` operators, join and order types, constants of `token/`, Go values | `Verif.Model.Types` |
| `types/context.go` | `Verif.Model.Context` |
| `format/`, `stmt/stmt.go: quote`, and `time`, `strconv`, `hex` as used there | `Verif.Model.Format` |
| `stmt/` data types | `Verif.Model.Ast` |
| `stmt/` constructors and comparison methods | `Verif.Model.Construct` |
| `stmt/` `IsEmpty` and `Write` methods | `Verif.Model.Write` |
| `stmt/set.go`, `stmt/conflict.go`, `Write` of INSERT, UPDATE, DELETE | `Verif.Model.SetPairs` |
| `builder/builder.go` | `Verif.Model.Convert` |
| `builder/select.go`, `insert.go`, `update.go`, `delete.go` | `Verif.Model.Builder` |
| `loukoum.go` and the constructors behind it | `Verif.Model.Api` |
| `lexer/`, `token/` | `Verif.Model.Lexer` |
| `parser/` | `Verif.Model.ParseJoin` |
| slices, maps and in-place sorting shared between builder values | `Verif.Model.Heap` |
| slices of the caller that builders keep | `Verif.Model.Caller` |
| rendering by several goroutines: the accesses of `PairContainer.Values`, one by one | `Verif.Model.Concurrent` |
| `builder/select.go` in several goroutines: the accesses of `append`, one by one | `Verif.Model.Derive` |
| `builder/update.go` in several goroutines: arrays, map and sort, access by access | `Verif.Model.DeriveUpdate` |
| `builder/insert.go` in several goroutines: target and pairs, access by access | `Verif.Model.DeriveInsert` |
| `lexer/`, `parser/` once more, statement by statement | `Verif.Model.Transcript` |
| the functions that look into strings once more, on bytes | `Verif.Model.Utf8` |
| `examples/` | `Verif.Model.Examples` |
| one possible Go runtime, for examples and tests | `Verif.Model.Runtime` |

Functions that have no definition of their own, and where they are:

* Constructors that only fill a struct (`NewFrom`, `NewGroupBy`, `NewInto`,
  `NewReturning`, `NewValues`, `NewComment`, `NewPrefix`, `NewDistinctOn`, ...):
  the clause structs with a single field are that field in the model
  (`stmt.From{Tables}` is `List FromItem`), so the constructor is the field.
* `IsEmpty` of those clauses: `List.isEmpty` of the field, or `Expr.isUnset`
  (`x == nil || x.IsEmpty()`), where the code calls it.
* `Max`, `Min`, `Sum` and `Count` are one type `Aggregate` with the function name
  as a field; `Exists` and `NotExists` are two constructors with one writer
  each; their `Write`, `As`, `IsEmpty` are in `Verif.Model.Write` and `Api`.
* Marker methods (`expression()`, `selectExpression()`, `operator()`, ...) have
  no body.  `String()` of operator, order and token types is the field.
* `Statement()` of builders is the statement itself: a builder struct has no
  other field.
* `InfixOnExpression.And/Or` are `OnExpr.And/Or` with either constructor.
* `writeRune`, `writeString` of `format` append to a buffer: `++`.
* `lexer` helpers `current`, `next`, `skipWhitespace`, `readIdentifier` are the
  recursion of `Verif.Model.Lexer` on the remaining text.

### Representation choices

* **Strings** are `List Char`, i.e. sequences of Unicode scalar values.  Go
  strings are bytes: `Verif.Model.Utf8` has the functions that look into strings
  once more, on bytes (`unicode/utf8`, `strings`, `strconv` as in the Go
  library), and C64 proves that on valid UTF-8 they do what the functions on
  characters do (Go compares strings bytewise; on valid UTF-8 that is the order
  of code points).  Statements with strings that are not valid UTF-8 are outside
  the model; names and literals of such strings are C65 and C66.
* **Panics** are values: `Go α = Except Panic α`.  Both explicit `panic` calls
  and nil dereference / index errors are represented.
* **Contexts.**  A `Write` method receives an interface with two methods.  In
  the model a writer is a function polymorphic in the context
  (`∀ σ, Context σ → σ → Go σ`); the three contexts of the code are three
  instances.  Nothing is assumed about a writer because of its type: that a
  writer behaves the same under all contexts is a theorem.
* **nil interfaces** are an explicit constructor of the expression type; calling
  a method on it is a `nilDeref` panic.
* **Values** that can be bound are the type `Val` (every Go type in the type
  switches of `format.Value` and `NewExpression`, plus opaque other types).
  Arguments of type `interface{}` are the type `Any`.
* **Maps** passed by the user are lists of entries; the list order stands for
  the iteration order Go happens to choose, and theorems quantify over it.
* **The Go runtime** is a type class `GoRuntime`: `strconv.IsPrint`,
  `fmt.Sprint` and `sort.Slice`, with only the facts of
  section 3.  All theorems quantify over it.
* **Builders** are immutable values in the main model (what the API promises).
  What Go really shares (slice backing arrays, the SET map, in-place sort) is
  modelled separately in `Verif.Model.Heap`, where the promise is examined.
  Simplifications there: only memory that methods write to after it was
  allocated is explicit; arguments of calls, hence sub-selects and the pairs of
  `DoUpdate`, are taken by value; a variadic argument is a fresh array.  How
  much `append` over-allocates is a parameter (`Growth`).

## 3. Go facts relied on

* `strconv.Quote` on valid UTF-8; `strconv.IsPrint` is a parameter with its
  ASCII behaviour fixed (printable exactly 0x20..0x7e).
* `strconv.FormatInt/FormatUint/FormatBool/ParseInt(base 10, 64)`,
  `hex.EncodeToString`, `strings.Split/Join/ToUpper/TrimSpace`,
  `time.Time.UTC().Format("2006-01-02 15:04:05.999999")`, `append`, map
  assignment and lookup, type-switch order.
* `sort.Slice` gives a permutation, which is sorted if the comparator is a
  strict weak order **on the elements of the slice**; nothing otherwise.  For
  C76 only: it gets to the slice by comparisons and swaps only, up to 12
  elements (6 before Go 1.19) those of `insertionSort_func`, and it swaps with
  `reflect.Swapper` (read, read, write, write).
* `strconv.FormatFloat(x, 'f', -1, 64)` finds the decimal with the fewest digits
  that reads back as the number, the nearest one if there are several (what the
  Go documentation says; the model has the simple search of the Go library, not
  the fast one).  The conversion of float32 to float64 is that of IEEE 754.
* `fmt.Sprint` prints a slice of strings, integers or booleans as its elements
  with spaces between them in brackets; otherwise it is an unknown function.

## 4. What is not modelled

* Invalid UTF-8 (except C65, C66), I/O errors of `strings.Builder`/`bufio` (cannot occur on the
  readers used), panics' message texts built with `%T`/`%+v` (kept as a
  constant tag).
* Pointers to statement types passed by the user (other than `*Wrapper`, which
  the code creates itself), user-defined `stmt.Statement` implementations
  outside the package's own types.
* Concurrency, except C76: the code starts no goroutine.  What builders share
  is covered sequentially by the heap model; goroutines that render the same
  builder at the same time are C76 (`Verif.Model.Concurrent`), with sequentially
  consistent accesses; up to 12 columns (6 before Go 1.19) with the insertion
  sort that runs there, otherwise with any sequence of comparisons and swaps.
  Goroutines that call methods of one SELECT builder are C78, of one UPDATE builder
  C79, of one INSERT builder C80.
* `examples/`, tests, and external database behaviour, except through the
  SQL reading specifications in `Verif/Spec/`.

## 5. Specifications (`Verif/Spec/`)

What theorems are stated with, apart from the model's own entry points.

| module | content |
|---|---|
| `Read` | how PostgreSQL reads quoted identifiers, string literals (with and without backslash escapes), numerals, hexadecimal |
| `Calendar` | days, months and leap years; reading a timestamp |
| `Scan` | a SQL scanner that sees placeholders outside strings, names and comments; `OneLine`, `uncommented` |
| `Tokens` | the tokens of a SQL text |
| `Layout`, `Weave` | a statement as a list of text pieces and values; rendering as weaving fragments and placeholders |
| `Sql` | a recursive-descent reader of SELECT, INSERT, UPDATE and DELETE from text and arguments to syntax trees |
| `Meaning` | the syntax tree a statement stands for |
| `Program` | the calls of loukoum that write a given syntax tree |
| `Machine` | what each method call does to a syntax tree, or that it is refused |
| `Condition`, `Where` | trees of conditions, truth values, a reader with SQL precedence, sequences of Where/And/Or |
| `Compare` | the comparison methods and their operators |
| `OnTree`, `JoinText`, `Lex` | conditions of joins, join strings, words and keywords |
| `Set`, `Pairs`, `Insert` | histories of SET, assignments, rows and conflict clauses |
| `Clauses`, `Calls`, `Accumulate`, `Argument` | clauses of texts, method calls as data, what arguments mean |
| `Embed` | positions where a SELECT can be embedded |
| `Substitute`, `Valuer`, `Encode` | replacing values; what valuers and encoders stand for |
| `Heap`, `History` | programs on builders that share memory |
| `Fork`, `Caller` | which builders share what a call writes; programs that keep slices they have passed to builders |
| `JoinGrammar` | the texts that are read as joins, exactly |
| `Readback` | readers of texts with named placeholders and of texts that contain their values as literals |
| `Float`, `Slice`, `Utf8`, `Unquote` | IEEE 754 numbers and numerals, printed slices, the UTF-8 encoding, Go string literals |
| `Shape` | statements up to the values in them |
| `Script` | programs of all four kinds: a first call and the method calls after it |
| `Rows` | what a database does to rows, and which rows the calls of a program ask for |
| `Panic` | which statements and arguments have no place where nil would be called |
| `Portable` | what a text depends on besides the code: two versions of Go |
| `Examples` | documented queries, which leave out double quotes |
| `Sqlx` | how the package sqlx, which is not part of the repository, reads a named query; from its published source |

## 6. Proof architecture (`Verif/Lemmas/`)

* `Trace`, `Denote`, `Contexts`: every writer replays a *layout*, a finite list
  of text and bind events that depends on the statement only.  `okStmt` is the
  exact condition under which nothing panics.  `query_eq` gives the text and the
  arguments of `Query()` in closed form; likewise for `NamedQuery`, `String`.
* `Weave`, `Substitute`, `Embed`: numbering, value replacement and embedding
  are facts about layouts.
* `Scan*`, `Tokens`, `Lexemes`, `TokenText`: the scanner and the tokenizer run
  over layouts, by recursion on the statement.
* `Sql*`: the reader consumes the layout of each clause and returns the tree of
  `Meaning`.
* `Program*`, `Machine*`: constructor calls and method calls establish the
  hypotheses of the reader's theorem, so that text is read as the intended tree.
* `Calls`, `Clauses`, `Accumulate`: a method call changes its own clause only
  (`Fields`/`Local`), hence commutation.
* `Slices`, `Heap*`, `History`, `Columns`: simulation between programs on
  shared memory and programs on values.

## 7. Properties: what is modelled and how it is proved

Theorems are in `Verif/Props/`; names and status are in `MANIFEST.json`.

| id | approach |
|---|---|
| C01 | Trace semantics: every writer acts like a finite sequence of text/bind events, uniformly in the context. `Query()` then is the run of that sequence; numbering by induction on the events. |
| C02 | Same trace, named context; keys `arg_1..arg_n` distinct by injectivity of decimal numerals. |
| C03 | Same trace for the three contexts; panics agree except for failing valuers. |
| C04 | Substitution theorem: mapping values through a nil-preserving function commutes with the trace (mutual induction on the statement). |
| C05 | Case analysis on values through the trace. |
| C06, C07 | SQL scanner as a state machine (`Spec.Scan`); mutual induction on statements with a safety predicate on names and raw fragments. The induction follows the layout up to its first comment, which gives the exact theorems for comments of sub-selects. |
| C08 | `quote` against an independent PostgreSQL identifier reader. |
| C09 | False of the code: witness name containing a double quote. Partial: exact class of names that are safe. |
| C10 | Decoder for backslash literals; round trip and injectivity. |
| C11 | False of the code: witness. Partial: strings without quote, backslash, newline, carriage return, tab. `C11_exact` says where the literal ends, `C11_injection` that any SQL text can be smuggled in. |
| C12 | Numeral reader; round trip by induction. |
| C13 | Hex decoder; round trip. |
| C14 | Civil-calendar specification, counted year by year; round trip of the printed fields. Beyond the years 0 to 9999 (`C14_any`) the calendar repeats every 400 years, and the year is read with a sign and as many digits as there are. |
| C15 | Recursion on valuer nesting. |
| C16 | Induction on the call sequence against a left fold specification. |
| C17 | False of the code: witnesses (empty condition erases the clause). Partial: no empty condition. For all calls: the clause has exactly the conditions after the last empty one (fold over the calls). |
| C18 | Independent reader of parenthesised conditions; round trip. |
| C19, C22 | One equation per method. |
| C20 | Proved for the positions that wrap; false for Is/Like/IsDistinctFrom/Between operands: witnesses. `C20_exact` says for each comparison method whether it wraps. |
| C21 | Induction on the argument list. |
| C23 | Guards, one theorem per method; false for Suffix/Prefix/DistinctOn: witnesses. |
| C24 | Commutation of operations on different clauses, through the fields each call may change. For SELECT `C24_select_exact` (`Props/CallOrder.lean`) compares with the calls that look at their own clause only, and says which orders are refused. |
| C25 | Closed form of the rendered statement. |
| C26, C27 | Integer arithmetic with explicit wrap-around; numeral reader. |
| C28-C30 | Lists. Parts false of the code (empty names from []string, From values) are witnessed. |
| C31 | Finite-map specification of the call history. |
| C32 | Permutation invariance through the sort contract. `C32_exact` (Props/MapOrder.lean): if two keys name one column with values of different text, the two orders that end with them give different texts. |
| C33 | Invariant on the mode over call sequences. |
| C34, C35 | Lists; C35 false for a nil cell and for an empty outer slice: witnesses; `C35_exact` says for every table what comes out. |
| C36 | Case analysis; false for DoUpdate() without pairs: witness. |
| C37 | Case analysis. |
| C38-C40 | Lexer as a fuel-free recursion on the remaining text; `C38_transcript` equates it with the code written down statement by statement (two runes of look-ahead, `Model/Transcript.lean`). |
| C41 | Token-level grammar, then text-level; `C41_transcript` equates the loop on tokens with the code of `ParseJoin` (cursor, nested loops). |
| C42 | False in general (left associativity); exact criterion on the connective sequence. |
| C43, C44 | False: witnesses. Partial: the condition is made of the comparisons of the text. Exact: a grammar of the texts (Spec/JoinGrammar.lean); every text is items and a rest, and the rest decides the outcome. |
| C45 | False: heap model witnesses. Partial: clauses held by value; slices without spare capacity. Exact (Props/Fork.lean): validity of all slices is kept by every program, so the effect of `append` on every other slice of the same array is known (`Store.append_any`), and `Set` writes to the map of the builder it is called on; for INSERT the loop of `OnConflict` is followed cell by cell (`conflictLoop_read`), also if it panics; for UPDATE (Props/ForkUpdate.lean) a call is a sequence of steps on the SET clause, done until one is refused (`StepsTo`), whose effect on memory has a closed form (`outcome`), so that all builders after a call or rendering are known. |
| C46 | Refinement: heap model refines the value model on linear histories, any growth policy. |
| C47 | Heap model with in-place sort; false with aliased SET columns: witnesses. For INSERT the SET clause of DO UPDATE always is all of its array, so a rendering permutes it (Props/ForkInsert.lean). Exactness (Props/Determined.lean): a sort may do anything with columns that the comparison calls less than each other; one that reverses them changes the first column of the text, and columns can be told from the text. |
| C48 | False for comments with newlines: witness. Partial: newline-free comments. |
| C49-C52 | Induction / case analysis; C51 through the trace with shifted numbering. |
| C53, C54 | The tokens of the text depend on the layout only up to the tokens of values (names): run of the tokenizer over layouts. |
| C55 | The SQL reader run on the closed form of the text: recursion on statements, one lemma per clause. |
| C56-C60 | Functions of `loukoum.go`: closed forms against the specification of keys, aggregates, WITH and table arguments; C60 is false for builder values: witness. |
| C61 | Recursion on the syntax tree: the calls of `buildStmt` do not panic and give a statement whose meaning is the tree; then C55. |
| C62 | Simulation: a relation between builder and syntax tree is kept by every call, or both refuse; then C55. `Script` (Spec/Script.lean) puts the four kinds of programs together for C62_program, C63_program and C71_program. |
| C63 | Readers for named placeholders and for literals, in Spec/Readback.lean; the tokens of each piece of the layout are read as the lexemes of the piece with the value that the literal says; then the parser of C55. Numerals with a point become the nearest double (a choice that exists and is unique by C67); no piece begins with a point, so a numeral ends where its value ends. |
| C64 | Encoder and decoder of UTF-8 inverse to each other (byte arithmetic with `omega`); each function by induction on the characters, from the right for trimming. |
| C65 | Reader of Go string literals (Spec/Unquote.lean) run on what `quote` writes, for the runs of valid and invalid bytes that the decoder finds. |
| C66 | False: witness of two strings with the same literal. Partial: the literal is that of the string with U+FFFD for each invalid byte, hence right iff the string is valid UTF-8. |
| C67 | Arithmetic on integers: the search finds a decimal between the points half-way to the neighbouring numbers, which is the same as rounding to the number; the text of it is a numeral for it; a float32 has the same magnitude after conversion. False for NaN and the infinities: witnesses. |
| C68 | Text of a slice read back by splitting at spaces; the scanner run on it. False for strings: witnesses. |
| C69 | Memory with the caller's slices in it; invariant that says who may write to which array. False for methods that keep the slice: witnesses. All programs without restriction: a description in terms of values (`Spec/Shared.lean`) to which memory is related step by step. |
| C70 | An executor of the statements that the parser reads (`Spec/Rows.lean`): conditions in three-valued logic, DELETE, UPDATE, INSERT and SELECT on rows, with comparison, functions, nested queries, joins, grouping and sorting left open (`Database`). What the calls ask for is said by folding over the calls. Proved through C62 by induction on the calls. INSERT is executed row by row; a row in the way (`Database.clash`) is left alone or changed, as ON CONFLICT says, and a row is not changed twice. Constraints that refuse a statement without ON CONFLICT are left out. |
| C71 | `SqlStmt.mapValues` (`Spec/Shape.lean`) replaces the values of a SQL statement; two statements have the same shape if they are equal once all values are replaced by one. Replacing the values of a statement of the model commutes with its meaning (`Lemmas/Shape.lean`, mutual induction), so C04 and the round trips C55, C63 give C71. |
| C72 | `Spec/Panic.lean`: `noHole` (no nil `Expression` where `Write` or `IsEmpty` would be called on it), `Sound` (arguments of that kind) and `Deliberate` (a panic, if any, carries a message). `Lemmas/Panic.lean` goes through every writer, for any context whose `Bind` is deliberate; `Lemmas/PanicCalls.lean` goes through every constructor, conversion and builder method. `C72_partial` puts both together for programs; what is built is again an argument of that kind. `C72_false` has the exceptions as witnesses, `C72_join` says exactly which join strings are among them, through `C44_exact`. `C72_render_exact` says for every statement whatever in which panic each rendering ends: `Spec/Fault.lean` lists the faults of a statement (a nil that is called, an incomplete condition, a value that cannot be formatted) in the order of the text, and the first of them decides; `Lemmas/Fault.lean` goes through all writers again for that. |
| C73 | A `GoRuntime` is what a version of Go contributes; the theorems compare two. The layout of a statement involves it only in the order of SET; rendering only in the characters of names (and `fmt.Sprint`). If aliases do not contradict names, every sort gives the same list; conversely the first character that only one of them calls printable makes the texts differ, and so do a sort that leaves unordered columns alone and one that reverses them (Props/Determined.lean). Witnesses for `C73_false`: `Runtime.sample` and `Runtime.other`. |
| C74 | `Model/Examples.lean` is a transcription of the programs. Each is evaluated by the kernel with the record as a variable and one runtime; C73 carries the result to every runtime. Text and comment are compared as lists of tokens. |
| C75 | `Spec/Sqlx.lean` is the loop of sqlx's `compileNamedQuery` on bytes, and its lookup of names. The two texts of a statement are related byte by byte (`Swap`: `:arg_i` against `$i`, each followed by a byte that ends a word), from `Joined`. One direction by induction on this relation; the other by counting colons: every colon begins a name, is one of a pair, or belongs to `:=`. `Lemmas/Keywords.lean` shows that the fixed texts contain no colon. |
| C76 | `Model/Concurrent.lean` has the accesses of one rendering to the array of columns one by one (insertion sort of the Go library, then the loop of `Values`); `Spec/Concurrent.lean` interleaves any number of goroutines. Goroutines that only read keep an invariant (`Quiet`), with or without aliases. The counterexample for all columns that are not in order: both goroutines read up to the first exchange, one is stopped in the middle of it; what is lost does not come back because sorting only moves cells. `Sorter` is any sequence of comparisons and swaps, each depending on the results of the comparisons before; the same two arguments go by induction over it. |
| C77 | The executor of C70 with the answer of `RETURNING` (`Spec/Returning.lean`): the entries, evaluated for the rows removed, changed or written. Proved through C62 by induction on the calls; that a row written by an INSERT is there in the end holds because a row is not changed twice by a statement. |
| C78 | `Model/Derive.lean` has the accesses of the calls of a goroutine to the arrays of the shared SELECT builder one by one (`append` in place or with a copy); `Spec/Derive.lean` interleaves any number of goroutines. `Safe` says that what a goroutine still has to do reads only cells below the length of the shared slices or in clauses that it alone extends, writes only cells of the latter, and gives the result on plain values; it survives the steps of all others. The counterexample: both write the same cell, the first reads it afterwards. |
| C79 | As C78, with the map of SET as one more cell and the accesses of the sort in rendering (`Model/DeriveUpdate.lean`). `Refines` says that an operation of a goroutine, as a continuation over memory, does what the function of `Model/Builder.lean` does on plain values; it is closed under the loops of `MergeSet` and `Using`. The counterexamples run one goroutine through its `Set`, then the other, then render. For one goroutine alone (`C79_one`) its accesses are run as a function (`One.finish`), and every operation, pairs and the sort included, is compared with the function on plain values. |
| C80 | As C78, for the one array of an INSERT builder that can be written to: the conflict target while there is no action, else the columns of DO UPDATE (`Model/DeriveInsert.lean`). The same invariant (`Safe`: reads below the length of the shared slice, writes only behind it and only by one goroutine). Counterexamples: two appends to the same cell and one goroutine run to its end (`C80_exact`); two first exchanges of the sort interleaved (`C80_lost`, by `lost_two`). `C80_one` says what the run of one goroutine alone is, whatever the order of its pairs: the sequential run, as `C79_one`. |

## 8. What was found to be false of the code

Each with a theorem `..._false` and a concrete witness, and a `_partial` theorem
with the condition under which the property holds.

* C06, C07, C09, C11, C48: `"`, `\`, newlines in names, literals and comments
  leave their token (`quote` and `format.String` escape as Go does).
* C17: an empty condition (an identifier without a name, an empty `And`) or a nil one drops
  the WHERE clause of UPDATE and DELETE.
* C20: `Like`, `Is`, `Between`, `IsDistinctFrom`, cells of VALUES do not put
  sub-selects in parentheses.
* C23, C24: `Suffix`, `Prefix` and `DistinctOn` test the wrong field;
  `Columns` of SELECT replaces.
* C32, C47: the comparator of SET columns is no order if columns have aliases.
* C35: a row of VALUES with a single nil or a single slice loses its shape.
* C36: `DoUpdate()` without pairs lets `OnConflict` be called twice.
* C42, C43, C44, C52: conditions of joins given as strings associate to the
  left; malformed strings can crash or be cut silently.
* C45: builders forked from a common one share arrays and the SET map.
* C66: in a literal of `String()` each byte that is not UTF-8 is replaced by
  U+FFFD, so that different strings have the same literal.
* C68: a `[]string` given as a value is printed by `String()` without any quotes or
  escapes, so that its strings become SQL.
* C67: NaN and the infinities are printed as the bare words `NaN`, `+Inf`, `-Inf`.
* C69: `With` keeps the slice spread in its first call; `GroupBy`, `Columns` and `Returning`
  keep a slice given as the only argument. Later writes by the caller change the builder.
* C72: a nil `*time.Time`, `Values()`, a `stmt.From` value given to `From`, join strings without
  a condition, and nils in slices or embedded in values end in run-time panics.
* C73: the order of SET columns with aliases and the escapes of characters outside ASCII depend
  on the version of Go.
* C74: not the code, but a comment: the query in README.md:71-78 is not that of the program above it.
* C75: a NamedQuery whose raw fragments, names or comments contain colons does not survive sqlx: `b::date` is sent as `b:date`, and a comment with an address makes the query fail.
* C76: rendering sorts the columns of an UPDATE in place, so two goroutines that render the same UPDATE builder for the first time can both produce (and leave behind) a statement that assigns one column twice and another not at all.
* C78: a SELECT builder kept in a variable of a package, with joins or orderings (three, say), is not safe to derive queries from in several goroutines: one can get the join of another one's query.
* C79: `Set` with pairs on a shared `Update("t")`: all copies have the same map, so a goroutine can get the value of another one, or an UPDATE without its column.
* C80: rendering an INSERT with DO UPDATE from several goroutines: as C76, a column can get lost; and `OnConflict` on copies of a builder that has conflict columns but an empty DO UPDATE: as C78.
* C60: `IsSelectBuilder` and the like are false for builder values.

## 9. Axioms of every theorem in the manifest

Names without `Verif.Props.`; from `#print axioms`.

no axioms (3 theorems):

C60_partial, C60_false, C66_false.

`propext` (32 theorems):

C10_string_literal, C10_injective, C11_false, C12_bool, C16_having_first, C17_false, C21_slices, C23_select_partial, C23_update, C23_delete, C23_select_exact, C23_distinctOn_false, C23_prefix_false, C23_suffix_false, C24_select_false, C29_strings, C29_select_nothing, C30_select, C30_update_delete, C30_delete_using, C35_extra_ignored, C35_none, C43_false, C44_false, C50_builder, C67_false, C68_false, C69_false, C69_append_false, C69_caller_false, C72_conditions, C73_insert.

`Quot.sound`, `propext` (167 theorems):

C01_positional, C05_nil_is_null, C06_scanner_partial, C06_exact, C06_hidden, C06_expression, C06_false, C07_false, C08_ordinary_names, C08_single_name, C09_false, C09_dotted_partial, C11_exact, C13_bytes, C15_string, C15_failure, C16_select, C16_update, C16_delete, C16_having, C17_select_partial, C17_update_partial, C17_delete_partial, C17_false_replaced, C17_select_exact, C17_update_exact, C17_delete_exact, C17_select_accepted, C17_update_accepted, C17_delete_accepted, C19_operands, C19_arguments, C20_partial, C20_exact, C20_in_others, C20_between, C20_condition, C20_exists, C20_in, C20_set, C20_unprotected, C20_false, C21_elements, C21_values, C21_single, C22_bounds, C22_values, C23_select_first_partial, C23_insert, C23_update_first, C23_delete_first, C23_select_frame, C23_insert_frame, C23_update_frame, C23_delete_frame, C25_select, C25_insert, C25_update, C25_delete, C27_exact, C27_refused, C28_slice, C29_slices, C30_text, C30_text_others, C32_false, C32_alias_false, C35_accepted, C35_false, C36_empty_update_false, C37_select, C37_insert, C37_update_table, C37_update_set, C37_delete, C37_select_complete, C37_insert_complete, C37_update_complete, C37_delete_complete, C37_delete_blank, C38_total, C38_lossless, C38_nonempty, C38_nul, C38_transcript, C39_blanks, C39_around_symbol, C39_ends, C40_words, C40_case, C41_well_formed, C41_nothing_lost, C41_constructors, C42_rendered, C42_partial, C42_false, C44_exact, C45_select_false, C45_update_false, C45_render_false, C45_insert_false, C47_select, C47_false, C47_insert_false, C48_false, C49_select, C49_update, C49_update_text, C49_text, C50_builder_query, C51_embedding, C52_join, C52_on_partial, C52_type, C52_string_partial, C52_false, C52_text_accepted, C52_text_exact, C54_tokens, C54_name, C56_orderBy, C57_count, C57_others, C58_with, C58_update, C59_insert_accepts, C59_update_accepts, C59_using_accepts, C59_insert_text, C59_update_text, C59_methods, C60_exact, C64_split, C64_number, C68_booleans, C68_words_partial, C68_closed, C69_groupBy_false, C72_partial, C72_render, C72_render_exact, C72_render_crash, C72_expressions, C72_false, C73_panics, C73_false, C74_readme, C75_false, C76_partial, C76_text_partial, C76_any_sort_partial, C76_any_sort_exact, C76_insertion, C76_witness, C76_false, C78_alone, C79_partial, C79_one, C79_append, C79_mixed, C79_lost, C79_insertion, C79_witness, C79_alone, C79_false, C80_lost, C80_alone.

`Classical.choice`, `Quot.sound`, `propext` (220 theorems):

C02_named, C03_renderings_agree, C04_values_do_not_matter, C04_substitution, C05_nil_is_null_named, C06_comment, C07_closed_partial, C07_exact, C07_expression, C09_partial, C09_dotted_exact, C11_partial, C11_injection, C12_signed, C12_unsigned, C12_limit_offset, C14_time, C14_any, C14_range, C15_arguments, C18_reads_back, C18_injective, C19_identifier, C19_isNull, C19_operators_differ, C23_insert_first, C24_select_partial, C24_select_agree, C24_select_exact, C24_insert, C24_update, C24_delete, C26_limit, C26_offset, C26_limit_text, C26_offset_text, C26_limit_object, C26_offset_object, C28_columns, C28_strings, C28_blank, C28_never_empty, C28_groupBy, C28_insert, C28_distinctOn, C29_expressions, C29_nothing_dropped, C29_select, C29_columns, C29_returning, C30_from_value, C31_update, C31_accepted, C31_doUpdate, C32_sorted, C32_update_partial, C32_insert_partial, C32_doUpdate_partial, C32_exact, C33_either, C33_exclusive, C33_pairs_then_columns, C33_columns_then_pairs, C33_using, C33_columns_text, C33_insert, C33_doUpdate, C34_insert, C34_accepted, C35_rows_partial, C35_cells, C35_slice, C35_exact, C35_exact_accepted, C36_accepted, C36_nothing, C36_update_partial, C36_rest_ignored, C36_empty_update, C36_left_over, C36_accepted_exact, C41_transcript, C42_criterion, C43_partial, C43_exact, C44_partial, C44_every_text, C45_select_partial, C45_select_values, C45_update_partial, C45_update_others, C45_insert_partial, C45_select_exact, C45_insert_exact, C45_update_exact, C45_update_changes, C45_update_call, C45_update_render, C45_select_call, C45_insert_call, C45_insert_render, C46_select, C46_update, C46_insert, C46_select_chain, C46_update_chain, C46_insert_chain, C47_update_partial, C47_update_repeat, C47_insert_partial, C47_update_exact, C47_insert_exact, C48_appended, C48_invisible_partial, C48_exact, C48_invisible_iff, C50_precedence, C50_given, C50_given_query, C53_values, C53_named, C54_names, C55_roundtrip, C55_faithful, C61_expressible, C61_injective, C62_select, C62_insert, C62_update, C62_delete, C62_program, C63_named, C63_string, C63_all, C63_program, C64_literal, C64_name, C64_statement, C64_trim, C64_order, C64_tokens, C65_name, C65_name_injective, C66_literal, C66_decodes, C66_partial, C66_exact, C67_partial, C67_real_partial, C67_exact, C67_short, C67_injective, C68_partial, C68_unsigned, C69_orderBy, C69_with_partial, C69_groupBy_partial, C69_insertColumns_partial, C69_selectColumns_partial, C69_returning_partial, C69_distinctOn_partial, C69_groupBy_exact, C69_distinctOn_exact, C69_insertColumns_exact, C69_selectColumns_exact, C69_returning_exact, C69_slices, C69_with_exact, C69_orderBy_exact, C70_delete, C70_update, C70_update_columns, C70_insert, C70_insert_set, C70_insert_keeps, C70_select, C70_and_safer, C70_or_wider, C71_query, C71_named, C71_string, C71_select, C71_program, C72_join, C73_partial, C73_exact, C73_aliases, C73_characterised, C73_update, C73_no_set, C73_ascii, C73_insert_exact, C74_FindUsers, C74_FindComments, C74_FindStaffComments, C74_DeleteUser, C74_PublishNews, C74_CreateComment, C74_UpsertComment, C75_partial, C75_exact, C76_alone, C76_exact, C76_unsorted, C77_delete, C77_update, C77_update_columns, C77_insert, C77_insert_set, C77_insert_rows, C78_partial, C78_exact, C78_witness, C78_false, C79_sorts, C80_partial, C80_one, C80_exact, C80_witness, C80_false.

## 10. Testing of the theorems

`seeded/LOG.jsonl` records 380 wrong programs: a definition of the model edited
like a realistic bug, the claim this breaks, the theorems that failed, and the
theorems that were tightened because they did not fail.

The attempts were measured in two ways. In lines with the field `measured`, every
module that depends on the edit was compiled past its errors, and `failed` lists
exactly the theorems of the manifest that are gone or depend on a failed proof;
`errors` lists the declarations with an error of their own. In the other lines,
`failed` lists the declarations with an error, and `not_checked` the theorems of the
claimed property in modules that could not be built because a module they import
had failed; whether these would have failed was not determined. An earlier version
of the log listed theorems under `unproved` without checking that their module was
affected; these entries were removed.
