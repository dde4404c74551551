{"id": "C01", "title": "Positional placeholders line up with the argument list", "statement": "When Query() on any Select, Insert, Update or Delete builder returns (text, args), the text consists of fixed fragments and placeholders; the k-th placeholder written, reading left to right, is exactly $k for k = 1..len(args), and args[k-1] is the value that was supplied at that position of the query. No number is skipped, repeated or out of order, at any nesting depth.", "quantifier": "every statement the four builders can hold (arbitrary nesting of sub-selects, joins, CTEs, arrays, SET pairs) and every bound value", "why_tests_cant": "A unit test checks one query; the numbering has to survive every nesting and combination of clauses.", "anchors": ["types/context.go: StdContext.Bind, NamedContext.Bind, RawContext.Write", "stmt/*.go: Write methods", "builder/{select,insert,update,delete}.go: Query, NamedQuery, String"]}
{"id": "C02", "title": "Named placeholders match the argument map", "statement": "When NamedQuery() returns (text, args), the k-th placeholder written is exactly :arg_k, the map has exactly the keys arg_1..arg_n (nil map when n = 0), no key is written twice, and arg_k maps to the value supplied at that position.", "quantifier": "every statement and every bound value", "why_tests_cant": "Key collisions or gaps depend on the number and nesting of binds; a test fixes both.", "anchors": ["types/context.go: StdContext.Bind, NamedContext.Bind, RawContext.Write", "stmt/*.go: Write methods", "builder/{select,insert,update,delete}.go: Query, NamedQuery, String"]}
{"id": "C03", "title": "The three renderings describe the same query", "statement": "String(), Query() and NamedQuery() of the same builder either all fail or fail only because a value itself cannot be formatted, and when they succeed the three texts are identical except at bind positions, where they show the literal, $k and :arg_k of one and the same value sequence.", "quantifier": "every statement and every bound value", "why_tests_cant": "Needs to hold for every statement shape; tests compare hand-picked strings.", "anchors": ["types/context.go: StdContext.Bind, NamedContext.Bind, RawContext.Write", "stmt/*.go: Write methods", "builder/{select,insert,update,delete}.go: Query, NamedQuery, String"]}
{"id": "C04", "title": "Bound values never influence the query text", "statement": "Replacing any non-nil values passed to the builders by other non-nil values changes neither the text returned by Query() or NamedQuery(), nor whether it panics, nor the number and order of arguments; only the argument contents change accordingly. In particular no user value, however hostile, can change the SQL.", "quantifier": "every statement and every nil-preserving substitution of values", "why_tests_cant": "This is the injection-safety claim: it ranges over all values and pairs of executions (a hyperproperty).", "anchors": ["stmt/expression.go: Value.Write, NewExpression", "types/context.go: StdContext.Bind, NamedContext.Bind"]}
{"id": "C05", "title": "nil is NULL and nothing else is", "statement": "A nil value renders as the keyword NULL and consumes no placeholder and no argument; every other value consumes exactly one placeholder and one argument and never renders as NULL in Query() or NamedQuery().", "quantifier": "every value and every position in every statement", "why_tests_cant": "Ranges over all values and positions.", "anchors": ["stmt/expression.go: Value.Write, NewExpression"]}
{"id": "C06", "title": "A SQL scanner sees exactly the intended placeholders", "statement": "If names contain no double quote and raw fragments are self-contained, then a left-to-right SQL scan of the Query() text (skipping quoted identifiers and string literals) finds exactly the placeholders $1..$n in that order: no placeholder hides inside a quoted region, two placeholders never run together, and identifiers cannot introduce extra ones.", "quantifier": "every statement with quote-free names and self-contained raw fragments", "why_tests_cant": "It is a statement about every produced text, not sample texts.", "anchors": ["stmt/stmt.go: quote", "stmt/*.go: Write methods", "types/context.go: StdContext.Bind"]}
{"id": "C07", "title": "Produced SQL is lexically closed", "statement": "If names contain no double quote and raw fragments are self-contained, then in the produced text every parenthesis and every quote opened by a statement is closed by the same statement: after any expression or whole statement the scan is back at depth zero outside quotes and never goes below the depth at which it started.", "quantifier": "every statement with quote-free names and self-contained raw fragments, any nesting depth", "why_tests_cant": "Balancedness over unbounded nesting cannot be tested exhaustively.", "anchors": ["stmt/infix.go, in.go, between.go, subquery.go, select.go, set.go, insert.go: Write"]}
{"id": "C08", "title": "Ordinary names are quoted to exactly the same name", "statement": "A column, table or alias name made of printable ASCII without double quote, backslash or dot is emitted as one quoted identifier that PostgreSQL reads back as exactly that name; a dotted name is emitted as the sequence of its dot-separated parts, each quoted, and reads back as exactly those parts.", "quantifier": "every name over that alphabet, any number of dotted parts", "why_tests_cant": "Ranges over all names.", "anchors": ["stmt/stmt.go: quote", "stmt/column.go: Column.Write", "stmt/table.go: Table.Write"]}
{"id": "C09", "title": "Identifier quoting cannot be escaped", "statement": "Whatever string is used as a name, the emitted text is a quoted identifier that PostgreSQL reads back as a single (dotted) name, so that a hostile name cannot end the identifier and inject SQL.", "quantifier": "every string used as a name", "why_tests_cant": "Adversarial inputs; only a proof or a counterexample settles it.", "anchors": ["stmt/stmt.go: quote (strconv.Quote)"]}
{"id": "C10", "title": "String literals of String() decode to the original", "statement": "In String() output a string value is rendered as one single-quoted literal; read with backslash escapes (E'' reading) it decodes to exactly the original string, ends exactly at its closing quote, and different strings give different literals.", "quantifier": "every string value", "why_tests_cant": "Ranges over all strings.", "anchors": ["format/format.go: String, Value"]}
{"id": "C11", "title": "String literals of String() are safe for PostgreSQL defaults", "statement": "Read with standard_conforming_strings (the PostgreSQL default, backslash is an ordinary character), the literal rendered for a string value ends exactly at its closing quote and denotes the original string.", "quantifier": "every string value", "why_tests_cant": "Adversarial inputs; only a proof or a counterexample settles it.", "anchors": ["format/format.go: String, Value"]}
{"id": "C12", "title": "Numbers and booleans are printed exactly", "statement": "In String() output, every signed or unsigned integer of any Go width is printed as its canonical decimal numeral (no loss, no sign error, minimum and maximum included; reading the numeral back gives the number), LIMIT and OFFSET likewise; booleans print as true/false.", "quantifier": "every integer of every width, every boolean", "why_tests_cant": "2^64 values per type.", "anchors": ["format/format.go: Int, Uint, Bool, Value", "stmt/limit.go: Limit.Write", "stmt/offset.go: Offset.Write"]}
{"id": "C13", "title": "Byte slices are printed as reversible hex", "statement": "In String() output a byte slice is rendered decode('<hex>', 'hex') with two lowercase hex digits per byte and no other characters, so that decoding gives exactly the original bytes.", "quantifier": "every byte slice", "why_tests_cant": "Ranges over all byte strings.", "anchors": ["format/format.go: Bytes"]}
{"id": "C14", "title": "Times are printed as the same instant", "statement": "In String() output a time is rendered as 'YYYY-MM-DD hh:mm:ss[.ffffff]+00' in UTC, a valid calendar date, denoting the instant truncated to the microsecond: reading it back with an independent calendar gives the original instant rounded down to a microsecond.", "quantifier": "every instant (any year from 0 to 9999)", "why_tests_cant": "Calendar arithmetic over all instants.", "anchors": ["format/format.go: Time"]}
{"id": "C15", "title": "Valuers are rendered through their value", "statement": "In String() output a driver.Valuer is rendered exactly like the value it yields (recursively), a nil pointer valuer renders NULL without calling Value, and a valuer that fails panics; Query()/NamedQuery() never call Value and pass the valuer itself as the argument.", "quantifier": "every valuer, every nesting of valuers", "why_tests_cant": "Ranges over all valuers and nestings.", "anchors": ["format/format.go: Value", "stmt/expression.go: NewExpression"]}
{"id": "C16", "title": "WHERE conditions combine left to right, fully parenthesised", "statement": "After Where(c1) followed by any sequence of And/Or/Where calls with non-empty conditions, the WHERE clause is (((c1 op c2) op c3) ...): each call combines everything before it with its own condition, in call order, and the same for Select, Update and Delete.", "quantifier": "every sequence of And/Or/Where calls and all non-empty conditions", "why_tests_cant": "Unbounded call sequences.", "anchors": ["stmt/where.go: And, Or", "builder/{select,update,delete}.go: Where, And, Or"]}
{"id": "C17", "title": "A condition is never silently dropped", "statement": "If a builder was given at least one condition through Where/And/Or and rendering succeeds, then the text contains a WHERE clause that contains every condition given.", "quantifier": "every sequence of condition calls on Select, Update and Delete", "why_tests_cant": "Silent loss depends on emptiness of a condition deep in the tree; a DELETE without WHERE is catastrophic.", "anchors": ["stmt/where.go: IsEmpty", "stmt/infix.go: IsEmpty", "builder/{select,update,delete}.go"]}
{"id": "C18", "title": "Conditions parse back to the tree the caller built", "statement": "The text of a condition built from comparisons with And/Or, read with the usual SQL precedence (AND binds tighter than OR) by an independent reader, yields exactly the tree the caller composed; hence two different condition trees never render to the same text.", "quantifier": "every And/Or tree of comparisons", "why_tests_cant": "Unbounded trees.", "anchors": ["stmt/infix.go: InfixExpression.Write, And, Or", "stmt/in.go: And, Or", "loukoum.go: And, Or"]}
{"id": "C19", "title": "Each comparison method emits its operator between its operands", "statement": "Equal, NotEqual, GreaterThan, GreaterThanOrEqual, LessThan, LessThanOrEqual, Is, IsNot, IsNull, Like, NotLike, ILike, NotILike, Contains, IsContainedBy, Overlap, IsDistinctFrom, IsNotDistinctFrom on identifiers (and the subsets available on values and calls) emit '(<left> <operator> <right>)' with the SQL operator of that name, left operand first, the value bound once; the operators of different methods differ.", "quantifier": "every identifier, every value, every method", "why_tests_cant": "Ranges over all operands; swapped operands or operators pass shallow tests.", "anchors": ["stmt/expression.go: Identifier, Value and Call methods", "types/operator.go"]}
{"id": "C20", "title": "Sub-selects used as operands are parenthesised", "statement": "When a Select is used as the right operand of a comparison, inside IN, EXISTS, NOT EXISTS, as a WHERE condition or as a SET value, it is rendered between parentheses, so the surrounding expression stays well formed.", "quantifier": "every sub-select, every operand position", "why_tests_cant": "Ranges over all operand positions and all selects.", "anchors": ["stmt/expression.go: NewWrapper, Identifier methods", "stmt/subquery.go", "stmt/in.go", "stmt/where.go", "builder/builder.go: MergeSet"]}
{"id": "C21", "title": "IN keeps every element once and in order", "statement": "In/NotIn with several arguments, with one slice of any supported element type, or with one []interface{} or []Expression, emit one element per item, in order, comma-separated; passing a slice is the same as passing its elements (for two or more elements).", "quantifier": "every element type, every length, every value", "why_tests_cant": "Unbounded lengths times all slice types.", "anchors": ["stmt/expression.go: NewArrayExpression, toArray", "stmt/in.go"]}
{"id": "C22", "title": "BETWEEN keeps its bounds in order", "statement": "Between(from, to) and NotBetween(from, to) emit '(<id> BETWEEN <from> AND <to>)' / '(<id> NOT BETWEEN <from> AND <to>)' with from bound before to.", "quantifier": "every identifier and every pair of bounds", "why_tests_cant": "Ranges over all operands.", "anchors": ["stmt/between.go"]}
{"id": "C23", "title": "Single-use clauses cannot be overwritten", "statement": "Calling a single-use clause method (From, GroupBy, Having, Limit, Offset, DistinctOn, Prefix, Suffix, Into, Columns of Insert, Values, Using of Delete, Returning, OnConflict) a second time on a builder where the clause is already set panics instead of replacing the clause, and the clause that was set first is the one rendered.", "quantifier": "every builder state and every argument", "why_tests_cant": "Ranges over all builder histories.", "anchors": ["builder/{select,insert,update,delete}.go: guards"]}
{"id": "C24", "title": "Clause order of calls does not matter", "statement": "Calls that set different clauses commute: any two orders of the same calls (keeping the relative order of calls on the same clause) give the same query, or both panic.", "quantifier": "every pair of calls on every builder state", "why_tests_cant": "All interleavings of call sequences.", "anchors": ["builder/{select,insert,update,delete}.go"]}
{"id": "C25", "title": "Clauses appear in SQL order", "statement": "Whatever the order of builder calls, a rendered SELECT consists of exactly the non-empty clauses in the order prefix, WITH, SELECT, DISTINCT ON, DISTINCT, columns, FROM, joins, WHERE, GROUP BY, HAVING, ORDER BY, LIMIT, OFFSET, suffix, comment, separated by single spaces; similarly for INSERT, UPDATE and DELETE.", "quantifier": "every statement", "why_tests_cant": "Ranges over all subsets of clauses.", "anchors": ["stmt/select.go: Write", "stmt/insert.go: Write", "stmt/update.go: Write", "stmt/delete.go: Write"]}
{"id": "C26", "title": "LIMIT and OFFSET accept exactly valid numbers and print them", "statement": "Limit(v) succeeds for a plain value only if v denotes an integer in 1..2^63-1 and then the text carries LIMIT followed by that number; Offset(v) succeeds only for 0..2^63-1 and carries OFFSET with that number (nothing for 0); any other value panics.", "quantifier": "every Go value passed as limit or offset", "why_tests_cant": "Ranges over all numeric types and all strings.", "anchors": ["builder/builder.go: ToInt64, ToLimit, ToOffset", "stmt/limit.go", "stmt/offset.go"]}
{"id": "C27", "title": "Numeric conversion never wraps or guesses", "statement": "Conversion of a limit/offset argument returns the mathematical value of the argument for every signed width, uint8..uint64 up to 2^63-1 and decimal strings (optional sign, digits only) in int64 range, and refuses everything else; it never returns a wrapped or truncated number.", "quantifier": "every integer of every width and every string", "why_tests_cant": "Overflow boundaries and all strings.", "anchors": ["builder/builder.go: ToInt64"]}
{"id": "C28", "title": "Column lists split on commas exactly", "statement": "A column-list argument given as strings yields the comma-separated parts, trimmed, in order, and panics if and only if some part is blank; a slice of columns is taken as is and panics if one has an empty name; results never contain an empty column.", "quantifier": "every list of strings or columns", "why_tests_cant": "Ranges over all strings.", "anchors": ["builder/builder.go: ToColumn, ToColumns"]}
{"id": "C29", "title": "Select expressions keep count and order", "statement": "Select(...)/Columns(...)/Returning(...) with a mix of strings, columns, aggregates, raw fragments and EXISTS expressions keep every item in the order given, strings split on commas and trimmed, and never silently drop one.", "quantifier": "every argument list", "why_tests_cant": "Ranges over all argument lists.", "anchors": ["builder/builder.go: ToSelectExpressions", "stmt/aggregate.go"]}
{"id": "C30", "title": "FROM lists the given tables in order", "statement": "From(t1,...,tn) with strings, tables or raw fragments renders FROM followed by exactly these, in order, comma-separated; zero arguments panic.", "quantifier": "every list of tables", "why_tests_cant": "Ranges over all lists.", "anchors": ["builder/builder.go: ToFrom", "stmt/from.go"]}
{"id": "C31", "title": "SET keeps the last value written for each column", "statement": "After any sequence of Set(pairs/maps) calls, the SET clause assigns each column that was ever given exactly once, with the expression given last for it, and mentions no other column.", "quantifier": "every sequence of Set calls with arbitrary pairs", "why_tests_cant": "Unbounded histories.", "anchors": ["stmt/set.go: PairContainer.Add, Values", "builder/builder.go: MergeSet", "builder/update.go: Set"]}
{"id": "C32", "title": "SET and INSERT text do not depend on map iteration order", "statement": "When SET pairs come from Go maps, the rendered text and the argument order are the same for every iteration order of the maps (columns without alias); the assignments are sorted by column name.", "quantifier": "every map and every iteration order, every sorting algorithm meeting the sort contract", "why_tests_cant": "Go randomises map iteration; a test sees one order.", "anchors": ["stmt/set.go: PairContainer.Values", "builder/builder.go: MergeSet"]}
{"id": "C33", "title": "SET syntaxes never mix", "statement": "A SET clause is either key-value or column-list: once one syntax was used, any call using the other one panics, Using panics unless the column-list syntax was selected first, and a rendered clause never contains both.", "quantifier": "every sequence of Set/Using calls", "why_tests_cant": "Unbounded histories.", "anchors": ["stmt/set.go: Add, Set, Use", "builder/update.go: Set, Using"]}
{"id": "C34", "title": "INSERT Set puts every value under its column", "statement": "Insert(t).Set(pairs) renders as many columns as values, and the i-th value is the one last given for the i-th column.", "quantifier": "every set of pairs", "why_tests_cant": "Ranges over all pairs and orders.", "anchors": ["builder/insert.go: Set", "stmt/set.go: Values"]}
{"id": "C35", "title": "INSERT Values keeps rows and cells", "statement": "Values(rows) with a slice of slices renders one parenthesised row per inner slice with its cells in order; Values(v1,...,vn) renders one row; no cell is lost, duplicated or moved to another row.", "quantifier": "every table of values of the supported element types", "why_tests_cant": "Unbounded tables.", "anchors": ["stmt/expression.go: NewArrayListExpression, toArrayList, ArrayList.Write", "builder/insert.go: Values"]}
{"id": "C36", "title": "ON CONFLICT renders what was asked", "statement": "OnConflict(targets..., action) panics unless an action is given and, for DO UPDATE, at least one target; otherwise the rendered INSERT carries ON CONFLICT with exactly the targets given before the action, in order, and that action.", "quantifier": "every argument list", "why_tests_cant": "Ranges over all argument lists.", "anchors": ["builder/insert.go: OnConflict", "stmt/conflict.go", "loukoum.go: DoUpdate, DoNothing"]}
{"id": "C37", "title": "Incomplete statements are refused, never rendered", "statement": "Rendering a Select with no column, an Insert without table, an Update without table or assignment, or a Delete without table panics; it never yields text.", "quantifier": "every builder state", "why_tests_cant": "Ranges over all builder states.", "anchors": ["stmt/{select,insert,update,delete}.go: Write, IsEmpty", "stmt/set.go: IsEmpty"]}
{"id": "C38", "title": "The tokenizer is total and lossless", "statement": "Tokenizing any text ends; dropping whitespace from a NUL-free text and concatenating the token texts gives the same characters, so no character is lost, invented or reordered.", "quantifier": "every text", "why_tests_cant": "Ranges over all texts; termination.", "anchors": ["lexer/lexer.go: Next, Iterator"]}
{"id": "C39", "title": "Whitespace only separates tokens", "statement": "Tokenizing is insensitive to the amount and kind of whitespace: inserting or removing blanks, tabs, newlines and carriage returns where whitespace already is (or next to a delimiter) does not change the tokens.", "quantifier": "every text and every such edit", "why_tests_cant": "Ranges over all texts and all edits.", "anchors": ["lexer/lexer.go: skipWhitespace, Next"]}
{"id": "C40", "title": "Keywords are case-insensitive and words are maximal", "statement": "A word is a maximal run of letters, digits, underscore and dot; it is a keyword exactly when its upper-case form is one of the listed keywords, whatever its case, otherwise a literal with its exact spelling.", "quantifier": "every word in every case variant", "why_tests_cant": "2^n case variants, all words.", "anchors": ["token/token.go: Lookup", "lexer/lexer.go: readIdentifier"]}
{"id": "C41", "title": "Well-formed join strings are parsed exactly", "statement": "Parsing '[INNER|LEFT|RIGHT] JOIN <table> ON <c1> = <d1> (AND|OR <ci> = <di>)*' (any spacing, any keyword case) yields that join type, that table and the comparisons and connectives in the order given; no comparison is lost or altered.", "quantifier": "every table name, every number of comparisons, every connective sequence", "why_tests_cant": "Unbounded conditions.", "anchors": ["parser/join.go: ParseJoin"]}
{"id": "C42", "title": "Join conditions keep their SQL meaning", "statement": "The ON condition rendered for a join string has, for every truth assignment of its comparisons, the value that SQL precedence (AND before OR) gives to the string.", "quantifier": "every sequence of comparisons and connectives, every truth assignment", "why_tests_cant": "Semantic equivalence over all truth assignments and lengths.", "anchors": ["parser/join.go: ParseJoin", "stmt/infix.go"]}
{"id": "C43", "title": "Parsing a join string never crashes", "statement": "ParseJoin on any text returns a join or an error; it never panics with an index or nil error.", "quantifier": "every text", "why_tests_cant": "All inputs, including malformed ones.", "anchors": ["parser/join.go: ParseJoin", "lexer/iteratee.go: Next", "stmt/join.go: IsEmpty"]}
{"id": "C44", "title": "Join parsing does not ignore part of its input", "statement": "If ParseJoin accepts a text, every comparison in the text appears in the parsed condition; text it does not understand is reported as an error rather than ignored.", "quantifier": "every text", "why_tests_cant": "All inputs.", "anchors": ["parser/join.go: ParseJoin"]}
{"id": "C45", "title": "Deriving a query does not change or share the one it came from", "statement": "Builders are values: calling a method on a builder returns a new builder and the old one, and other builders derived from the old one, keep rendering what they rendered before.", "quantifier": "every tree of derivations and every interleaving of calls", "why_tests_cant": "Depends on slice capacities and on the order of calls in the whole history.", "anchors": ["builder/select.go: Join, OrderBy, With", "builder/update.go: Set, Using, With", "builder/insert.go: OnConflict", "stmt/set.go"]}
{"id": "C46", "title": "Linear use of a builder behaves like plain values", "statement": "If each builder value is used for at most one further call, every clause accumulates exactly the arguments of the calls in order, whatever capacities the runtime chooses for the underlying storage.", "quantifier": "every linear history and every growth policy of append", "why_tests_cant": "All histories and runtime growth policies.", "anchors": ["builder/select.go: Join, OrderBy, With", "builder/update.go: Set, Using, With"]}
{"id": "C47", "title": "Rendering twice gives the same result", "statement": "Rendering a builder has no observable effect: calling String, Query or NamedQuery again, in any order and number, gives the same text and arguments.", "quantifier": "every statement, every sequence of rendering calls", "why_tests_cant": "Depends on hidden in-place sorting and on its interaction with repeated calls.", "anchors": ["stmt/set.go: Values (sort.Slice in place)", "builder/*.go: String, Query, NamedQuery"]}
{"id": "C48", "title": "A comment stays a comment", "statement": "Comment(c) only appends '; -- c' at the end of the statement: a SQL reader that skips comments sees exactly the query without the comment.", "quantifier": "every comment text and every statement", "why_tests_cant": "Adversarial comment texts.", "anchors": ["stmt/comment.go", "stmt/{select,insert,update,delete}.go: Write"]}
{"id": "C49", "title": "Joins, orderings and CTEs accumulate in call order", "statement": "Successive Join, OrderBy and With calls append: the rendered clauses list all of them exactly once, in the order of the calls, each with its own type, table and condition.", "quantifier": "every sequence of calls", "why_tests_cant": "Unbounded histories.", "anchors": ["builder/select.go: Join, OrderBy, With", "builder/update.go: With"]}
{"id": "C50", "title": "Values of user types are encoded by a fixed precedence", "statement": "A value that implements several encoder interfaces is used as: expression, then driver value, then time, then sub-statement, then int64, bool, time, string encoder; a builder used as a value is always inlined as a sub-select and never bound as its own SQL text; unsupported types panic.", "quantifier": "every combination of implemented interfaces", "why_tests_cant": "All combinations of interfaces and positions.", "anchors": ["stmt/expression.go: NewExpression", "stmt/encoder.go"]}
{"id": "C51", "title": "Embedding a query keeps its text and renumbers its arguments", "statement": "Where a Select builder is embedded (EXISTS, IN, comparison, CTE, SET value), the outer text contains the text of the inner query with placeholders shifted by the number of arguments before it, and the outer argument list contains the inner arguments contiguously at that position.", "quantifier": "every inner and outer query", "why_tests_cant": "All compositions of queries.", "anchors": ["stmt/select.go: Write", "types/context.go: StdContext.Bind"]}
{"id": "C52", "title": "Explicit join arguments win over the join string", "statement": "Join(table, cond) always joins the given table with INNER JOIN unless a type is given; Join(table, cond, type) uses exactly that type and table, for On clauses, combined On clauses and strings (the type and table mentioned in the string are ignored).", "quantifier": "every table, condition and type", "why_tests_cant": "All argument combinations.", "anchors": ["builder/select.go: join1, join2, join3, handleSelectJoin"]}
{"id": "C53", "title": "Values cannot change the token structure of a statement", "statement": "Read by a SQL tokenizer, the text of String is the text of Query with the i-th placeholder replaced by the tokens of the literal of the i-th value alone (one string literal for a string whatever it contains, a signed number for an integer, a decode call for bytes), and NamedQuery is Query with $i replaced by :arg_i. Condition: names contain no double quote, raw fragments are self-contained, the comment is one line, and, where backslashes do not escape, no string value contains a quote (C11).", "quantifier": "every statement and every list of values meeting the condition", "why_tests_cant": "All values at all positions of all statements; injection is a claim about every string.", "anchors": ["types/context.go: RawContext.Bind, StdContext.Bind, NamedContext.Bind", "format/format.go: Value, String", "stmt: every Write method"]}
{"id": "C54", "title": "Names cannot change the token structure of a statement", "statement": "Read by a SQL tokenizer, a name without double quote is exactly one quoted name for each dotted part (with exactly these contents for printable ASCII without backslash), so two statements that differ only in such names have the same tokens except for the contents of quoted names; the comment is no token.", "quantifier": "every statement and every choice of names", "why_tests_cant": "All names at all positions of all statements.", "anchors": ["stmt/utils.go: quote", "stmt: every Write method"]}
{"id": "C55", "title": "A rendered statement parses back to the statement that was built", "statement": "For every SELECT, INSERT, UPDATE or DELETE without prefix, suffix and free SQL fragments (names are printable ASCII without double quote and backslash, raw fragments are names, the operators are those of the library, sub-selects are parenthesised, LIMIT and OFFSET are not negative), a SQL parser with the usual precedence of OR, AND, NOT and comparisons, given the text and the arguments of Query, reads exactly the statement that was built: clause by clause, with conditions nested in the same way and each value in its own place. So statements that mean different things are never sent as the same query.", "quantifier": "every such statement, of any size and nesting", "why_tests_cant": "The statements are trees of unbounded depth; a test compares a text with one expected by its author and cannot tell how a parser groups it.", "anchors": ["stmt/select.go: Write", "stmt/insert.go: Write", "stmt/update.go: Write", "stmt/delete.go: Write", "stmt/expression.go", "types/context.go"]}
{"id": "C56", "title": "ORDER BY keys keep subject and direction", "statement": "Whatever other calls are made, the ORDER BY clause lists the keys given to OrderBy in order; Order(c) means c ASC, Order(c, d, ...) means c d, and Column(n).As(a).Asc()/Desc() order by the alias if there is one and by the name otherwise, in that direction.", "quantifier": "every list of keys and every sequence of calls", "why_tests_cant": "Unbounded lists of keys, names and call histories.", "anchors": ["loukoum.go: Order", "stmt/order.go", "stmt/column.go: Asc, Desc, As", "stmt/orderby.go"]}
{"id": "C57", "title": "Aggregates keep argument, DISTINCT and alias", "statement": "Count(v), Max(v), Min(v) and Sum(v), after any sequence of As and Distinct calls, are written FUNCTION([DISTINCT ]v)[ AS alias] with the last flag and the last alias given, in whatever order the calls were made.", "quantifier": "every argument and every sequence of calls", "why_tests_cant": "Unbounded call sequences.", "anchors": ["stmt/aggregate.go", "loukoum.go: Count, Max, Min, Sum"]}
{"id": "C58", "title": "Common table expressions keep name and query", "statement": "Whatever other calls are made, the WITH clause lists With(name, query) for all arguments given to With in order, each name verbatim and each query written as it is on its own.", "quantifier": "every list of common table expressions and every sequence of calls", "why_tests_cant": "Unbounded lists and histories.", "anchors": ["loukoum.go: With", "stmt/with.go", "builder/select.go: With"]}
{"id": "C59", "title": "INSERT and UPDATE act on the table that was given", "statement": "Insert and Update (and Using of DELETE) accept exactly tables with a non-empty name, given as text or table (or INTO clause for Insert); every other argument panics at the call. Whatever calls follow, the text is an INSERT INTO / UPDATE of that table.", "quantifier": "every argument and every sequence of calls", "why_tests_cant": "Unbounded histories, all argument types.", "anchors": ["builder/builder.go: ToInto, ToTable, ToTables", "loukoum.go: Insert, Update"]}
{"id": "C60", "title": "Builders can be told apart", "statement": "IsSelectBuilder, IsInsertBuilder, IsUpdateBuilder and IsDeleteBuilder return true exactly for a builder of that kind.", "quantifier": "every builder", "why_tests_cant": "All builders, whatever their history.", "anchors": ["builder/builder.go: IsSelectBuilder, IsInsertBuilder, IsUpdateBuilder, IsDeleteBuilder"]}
{"id": "C61", "title": "Every statement of the fragment can be written, and arrives as written", "statement": "For every SELECT, INSERT, UPDATE and DELETE of a large fragment of SQL there is a sequence of calls of loukoum's functions and methods that does not panic, and whose Query text, read together with its arguments by a SQL parser, is exactly that statement: same clauses, same nesting of conditions, same values in the same places.", "quantifier": "every statement of the fragment, of any size and depth", "why_tests_cant": "Statements are trees of unbounded size; the tests of the library compare a few hundred fixed texts and never start from the statement that the user has in mind.", "anchors": ["loukoum.go", "builder/select.go", "builder/insert.go", "builder/update.go", "builder/delete.go", "stmt/expression.go", "builder/builder.go"]}
{"id": "C62", "title": "Any sequence of method calls builds the statement the calls describe", "statement": "Starting from Select, Insert, Update or Delete, make any method calls, any number of times and in any order. A machine on SQL statements alone says what each call adds to the statement or that it is refused (a clause given twice, And without a condition, Set by name after Set by columns, ...). The program panics exactly if the machine refuses a call; otherwise the text and the arguments that are sent read as the statement the machine ends with.", "quantifier": "every sequence of calls, of any length and order, with arguments of any size", "why_tests_cant": "The sequences of calls are unbounded; the tests try each clause once, mostly in the same order, and look at texts instead of statements.", "anchors": ["builder/select.go", "builder/insert.go", "builder/update.go", "builder/delete.go", "builder/builder.go: MergeSet, ToSet", "stmt/where.go: And, Or", "stmt/set.go"]}
{"id": "C63", "title": "The texts of String and NamedQuery read back as the statement that was built", "statement": "A SQL parser that puts the argument called n in the place of :n reads from the text and the map of NamedQuery exactly the statement that was built. A SQL parser that is given the text of String alone reads the same statement, where each value is what its literal says: the same string, byte string, boolean, integer or finite floating-point number, an instant exact to the microsecond, and for a driver.Valuer what the literal of its value says. No value can be taken for a name, a key word or another value, and none can change the clauses, the nesting or the number of operands.", "quantifier": "every statement of the fragment of C55, of any size, and every value of the legible types", "why_tests_cant": "The inputs are all statements and all contents of values; the tests compare texts of fixed statements, and never read a text back.", "anchors": ["types/context.go", "format/format.go", "stmt/expression.go: Value.Write", "builder/select.go: String, NamedQuery", "builder/insert.go: String, NamedQuery", "builder/update.go: String, NamedQuery", "builder/delete.go: String, NamedQuery"]}
{"id": "C64", "title": "Bytes and characters agree", "statement": "Go strings are bytes. On strings that are valid UTF-8, every function of the library that looks into a string (quoting of names, string literals, splitting at = , and dots, trimming, the order of SET columns, numbers given as text, the lexer of join conditions) gives on the bytes exactly the encoding of what it gives on the characters; the bytes of String() are those of its pieces one after the other. No character of several bytes is ever cut, and no byte of it is taken for a quote, a separator or white space.", "quantifier": "every string of characters, and every statement", "why_tests_cant": "All Unicode strings; the tests of the library use ASCII only.", "anchors": ["stmt/stmt.go: quote", "format/format.go: String", "builder/builder.go: ToColumn, ToColumns, ToTable, ToInt64", "stmt/set.go: Write", "lexer/lexer.go"]}
{"id": "C65", "title": "Names of any bytes are written as valid UTF-8 and without collision", "statement": "Whatever bytes a name consists of, valid UTF-8 or not, what is written for it is valid UTF-8; it is Go string literals joined by dots which denote exactly the parts of the name between its dots; different names are never written the same.", "quantifier": "every sequence of bytes used as a name", "why_tests_cant": "All byte strings, including malformed encodings.", "anchors": ["stmt/stmt.go: quote"]}
{"id": "C66", "title": "String literals of any bytes denote the bytes given", "statement": "In String() output, the literal of a string value is valid UTF-8 and denotes exactly the bytes of the string, whatever they are; different strings give different literals.", "quantifier": "every sequence of bytes used as a string value", "why_tests_cant": "All byte strings, including malformed encodings.", "anchors": ["format/format.go: String"]}
{"id": "C67", "title": "Floats are printed as numerals that denote the same number", "statement": "In String() output, the literal of a floating-point value is a decimal numeral which, read with round-to-nearest, is exactly the number given, including its sign; a float32 reads back as the same float32. Different numbers give different literals.", "quantifier": "every float64 and float32 bit pattern", "why_tests_cant": "2^64 bit patterns; rounding errors show up at isolated ones.", "anchors": ["format/format.go: Float", "format/format.go: Value"]}
{"id": "C68", "title": "Slices given as values keep their elements in String()", "statement": "In String() output, the text of a []int64 or []string given as a value (for example to Contains or Overlap) is lexically closed, and the elements can be read back from it.", "quantifier": "every list of integers and every list of strings", "why_tests_cant": "All lists of all strings.", "anchors": ["format/format.go: Value", "stmt/expression.go: NewExpression"]}
{"id": "C69", "title": "Builders do not depend on the caller's slices after the call", "statement": "A caller that passes a slice of its own to a method of a builder (With and OrderBy by spreading it; GroupBy, Columns and Returning as a single argument) and goes on using the slice gets the builders, and keeps the slices, that it would get if slices and builders were plain values: assigning to elements or appending later changes no builder, and no method changes a slice of the caller.", "quantifier": "All programs of a caller with any number of slices and builders (making slices with any spare capacity, assigning, appending, passing a slice or written arguments to the method of any builder), and all policies for the capacities that append chooses.", "why_tests_cant": "Whether two slices share an array depends on capacities, on which call was the first and on the order of all later writes; a test shows one interleaving, and the tests of the repository always write their arguments out in the call.", "anchors": ["builder/select.go:132-140", "builder/update.go:55-63", "stmt/with.go:14-18", "builder/select.go:199-202", "builder/select.go:171-185", "builder/builder.go:73-83", "builder/builder.go:120-125", "builder/insert.go:34-45", "stmt/groupby.go:14-18", "stmt/returning.go:14-18"]}
{"id": "C70", "title": "A program touches exactly the rows that its calls ask for", "statement": "If a program of method calls builds a statement, then what is sent is read by a SQL parser as a statement on the table given whose execution removes (DELETE), changes (UPDATE) or selects (SELECT) exactly the rows for which the conditions of the Where, And and Or calls, joined one after the other in the order of the calls, are true in SQL's three-valued logic; without such calls all rows. An UPDATE gives each column the value of the last Set that names it and leaves every other column alone; an INSERT adds exactly the rows given, each value in its column, except that a row for which another row is in the way is left out or makes that row change as OnConflict says, and changes or removes nothing else; a SELECT reads the tables and joins given, and Offset and Limit cut the answer. One more And never makes a DELETE remove further rows, and one more Or never makes it spare a row.", "quantifier": "All sequences of calls of all builders with arguments that can be written (as in C62), all rows, and all databases: any way of comparing values, computing functions and nested queries, joining, grouping and sorting, and any rule which rows are in conflict.", "why_tests_cant": "Tests compare texts for fixed queries; none executes a query, and which rows are touched depends on the data, on NULLs and on how any number of calls nest.", "anchors": ["builder/delete.go:19-62", "builder/update.go:21-97", "builder/select.go:22-223", "builder/insert.go:23-125", "stmt/conflict.go:23-127", "stmt/set.go:74-150", "stmt/where.go:1-61"]}
{"id": "C71", "title": "The text sent determines the statement up to its values", "statement": "If two statements give the same Query text, or the same NamedQuery text, then they are the same SQL statement except for the values bound in it, and have the same number of arguments; a cache of prepared statements keyed by the text never runs another statement than the one that was built. If they give the same String text, and the values are strings, byte strings, booleans or 64-bit integers, they are the same statement with the same values. Two programs of method calls, in whatever order, that send the same text have described the same query up to values.", "quantifier": "All pairs of statements of the fragment of C55, with any one-line comments; all pairs of sequences of calls of a SELECT builder.", "why_tests_cant": "It speaks about all pairs of statements; tests compare single statements with fixed texts and never look for two different ones with the same text.", "anchors": ["types/context.go:23-77", "stmt/select.go:39-137", "stmt/insert.go:24-64", "stmt/update.go:29-72", "stmt/delete.go:23-52", "builder/select.go:22-276"]}
{"id": "C72", "title": "Panics are loukoum's own", "statement": "Wrong use of the library is answered with a panic that carries a message of loukoum; neither building nor rendering a query ends in a nil dereference or an index out of range.", "quantifier": "All programs: all arguments of all constructors and builder methods, all sequences of calls, all three renderings.", "why_tests_cant": "The tests try a handful of wrong calls; whether some argument, call sequence or nested sub-query reaches a nil interface or an index past the end is a question about all of them.", "anchors": ["stmt/expression.go:19-54", "stmt/expression.go:297-305", "stmt/join.go:51-53", "stmt/from.go:21-32", "stmt/infix.go:27-45", "parser/join.go:79-130", "builder/builder.go:202-227", "builder/select.go:67-129", "builder/insert.go:48-56"]}
{"id": "C73", "title": "The text does not depend on the version of Go", "statement": "For any two versions of the Go library (tables of printable characters, order given by sort.Slice to elements that its comparison does not decide, texts of fmt.Sprint), building and rendering the same program gives the same query, named query, arguments and text.", "quantifier": "All statements, all sequences of calls, all pairs of runtimes that satisfy the documentation of strconv.IsPrint on ASCII and of sort.Slice.", "why_tests_cant": "The tests run with one version of Go, and with comparisons that happen to be orders.", "anchors": ["stmt/stmt.go:19-26", "stmt/set.go:126-150", "builder/insert.go:108-126", "format/format.go:14-67"]}
{"id": "C74", "title": "The examples produce the queries documented beside them", "statement": "For every record, each program of examples/named and examples/standard runs, and Query and NamedQuery give the text in the comment beside it (which omits the double quotes around names) and the arguments listed there, in that order.", "quantifier": "All comments, users and news (all strings and integers in them), all runtimes.", "why_tests_cant": "The examples are not tested, and the comments are about all records.", "anchors": ["examples/named/comment.go:20-174", "examples/named/news.go:17-48", "examples/named/user.go:19-67", "examples/standard/comment.go:20-204", "examples/standard/news.go:17-49", "examples/standard/user.go:19-70", "README.md:60-390"]}
{"id": "C75", "title": "sqlx sends for NamedQuery what Query says", "statement": "If the text and the map of NamedQuery are handed to sqlx, as in the README and in examples/named, then what sqlx sends to the database is the text and the arguments of Query for the same builder.", "quantifier": "All statements and values; names, raw fragments and comments with any characters.", "why_tests_cant": "The tests of the repository never run sqlx; whether its reader, which knows nothing of quotes and comments, finds the same placeholders depends on every character of every fragment.", "anchors": ["types/context.go:39-59", "README.md:40-370", "examples/named/comment.go:20-174", "stmt/comment.go:20-28", "stmt/expression.go: Raw"]}
{"id": "C76", "title": "A builder can be rendered by several goroutines at once", "statement": "Goroutines that render the same builder at the same time, with no call in between, each get the result that they would get alone, and leave the builder as it was.", "quantifier": "every statement, every number of goroutines and every choice of rendering methods, every interleaving of their accesses to the memory of the builder", "why_tests_cant": "The interleavings of several goroutines cannot be enumerated or forced by a test; a race shows up rarely.", "anchors": ["stmt/set.go: PairContainer.Values", "stmt/update.go: Update.Write", "stmt/conflict.go: ConflictUpdateAction.Write"]}
{"id": "C77", "title": "Returning gives back the rows that were touched", "statement": "The answer of a DELETE, UPDATE or INSERT that was built with Returning has the entries given to Returning, in that order, for exactly the rows that the statement removes, changes or adds (after the change, and with OnConflict as it says); without Returning there is no answer. A DELETE answers as many rows as the table loses; the rows that an INSERT answers are in the table after it, one for each row given unless DoNothing is asked for.", "quantifier": "every sequence of method calls on a DELETE, UPDATE or INSERT builder that builds a statement, every table content, every database behaviour of comparison, functions and nested queries", "why_tests_cant": "The tests compare the text of single statements; that the clause means what the calls asked for, for all programs and all table contents, is about what a parser and a database make of the text.", "anchors": ["builder/delete.go: Delete.Returning", "builder/update.go: Update.Returning", "builder/insert.go: Insert.Returning", "stmt/returning.go: Returning.Write"]}
{"id": "C78", "title": "Goroutines can derive queries from a shared SELECT builder", "statement": "Goroutines that each derive a query of their own from one shared SELECT builder, by any calls, and render it, at the same time, each get the query that they would get alone, and leave the shared builder as it was.", "quantifier": "every shared SELECT statement, every capacity of its slices, every number of goroutines, every sequence of calls and rendering method for each, every interleaving of their accesses to the arrays of the builder", "why_tests_cant": "Whether two goroutines get in each other's way depends on the spare capacity of slices and on the interleaving of single writes; a test sees one capacity and one interleaving.", "anchors": ["builder/select.go: Select.Join", "builder/select.go: Select.With", "builder/select.go: Select.OrderBy", "builder/select.go: Select.String"]}
{"id": "C79", "title": "Goroutines can derive queries from a shared UPDATE builder", "statement": "Goroutines that each derive a query of their own from one shared UPDATE builder, by any calls, and render it, at the same time, each get the query that they would get alone, and leave the shared builder as it was.", "quantifier": "every shared UPDATE statement, every capacity of its slices, every way to sort by comparing and swapping, every number of goroutines, every sequence of calls and rendering method for each, every interleaving of their accesses to the arrays and the map of the builder", "why_tests_cant": "All copies of the builder have the same map, and their slices the same arrays; which goroutine finds what there depends on the interleaving of single accesses, of which a test sees one.", "anchors": ["builder/update.go: Update.Set", "builder/update.go: Update.Using", "builder/update.go: Update.With", "builder/builder.go: MergeSet", "stmt/set.go: PairContainer.Add", "stmt/set.go: PairContainer.Values"]}
{"id": "C80", "title": "Goroutines can derive queries from a shared INSERT builder", "statement": "Goroutines that each derive a query of their own from one shared INSERT builder, by any calls, and render it, at the same time, each get the query that they would get alone, and leave the shared builder as it was.", "quantifier": "every shared INSERT statement, every capacity of the slice of its conflict target, every way to sort by comparing and swapping, every number of goroutines, every sequence of calls and rendering method for each, every interleaving of their accesses to the arrays of the builder", "why_tests_cant": "All copies of the builder have the conflict target and the columns of DO UPDATE in the same arrays; which goroutine finds what there depends on the interleaving of single accesses, of which a test sees one.", "anchors": ["builder/insert.go: Insert.OnConflict", "stmt/conflict.go: OnConflict.IsEmpty", "stmt/conflict.go: ConflictUpdateAction.IsEmpty", "stmt/set.go: PairContainer.Values"]}
