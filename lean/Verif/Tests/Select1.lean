import Verif.Tests.Harness

/-! Conformance tests: builder/select_test.go, first part. -/

namespace Verif.Tests

attribute [local instance] Runtime.sample

-- TestSelect_Value / ValueEqual
example : Renders (do return Stmt.select (← SelectStmt.Where (← SelectStmt.From (← Verif.select [.val (.str s%"id")]) [.val (.str s%"video")]) (← compareWrapped (Expr.value (.str s%"fr")) Types.Equal (.expr (.raw s%"ANY(string_to_array(languages, ','))")))))
    s%"SELECT \"id\" FROM \"video\" WHERE ('fr' = ANY(string_to_array(languages, ',')))"
    s%"SELECT \"id\" FROM \"video\" WHERE ($1 = ANY(string_to_array(languages, ',')))"
    s%"SELECT \"id\" FROM \"video\" WHERE (:arg_1 = ANY(string_to_array(languages, ',')))"
    [(.str s%"fr")] := by decide +kernel

-- TestSelect_Value / ValueNotEqual
example : Renders (do return Stmt.select (← SelectStmt.Where (← SelectStmt.From (← Verif.select [.val (.str s%"id")]) [.val (.str s%"video")]) (← compareWrapped (Expr.value (.str s%"fr")) Types.NotEqual (.expr (.raw s%"ANY(string_to_array(languages, ','))")))))
    s%"SELECT \"id\" FROM \"video\" WHERE ('fr' != ANY(string_to_array(languages, ',')))"
    s%"SELECT \"id\" FROM \"video\" WHERE ($1 != ANY(string_to_array(languages, ',')))"
    s%"SELECT \"id\" FROM \"video\" WHERE (:arg_1 != ANY(string_to_array(languages, ',')))"
    [(.str s%"fr")] := by decide +kernel

-- TestSelect_Value / ValueOverlap
example : Renders (do return Stmt.select (← SelectStmt.Where (← SelectStmt.From (← Verif.select [.val (.str s%"id")]) [.val (.str s%"video")]) (← compareWrapped (Expr.value (.str s%"{fr}")) Types.Overlap (.expr (.raw s%"languages")))))
    s%"SELECT \"id\" FROM \"video\" WHERE ('{fr}' && languages)"
    s%"SELECT \"id\" FROM \"video\" WHERE ($1 && languages)"
    s%"SELECT \"id\" FROM \"video\" WHERE (:arg_1 && languages)"
    [(.str s%"{fr}")] := by decide +kernel

-- TestSelect_Value / ValueIsContainedBy
example : Renders (do return Stmt.select (← SelectStmt.Where (← SelectStmt.From (← Verif.select [.val (.str s%"id")]) [.val (.str s%"video")]) (← compareWrapped (Expr.value (.str s%"{fr}")) Types.IsContainedBy (.expr (.raw s%"languages")))))
    s%"SELECT \"id\" FROM \"video\" WHERE ('{fr}' <@ languages)"
    s%"SELECT \"id\" FROM \"video\" WHERE ($1 <@ languages)"
    s%"SELECT \"id\" FROM \"video\" WHERE (:arg_1 <@ languages)"
    [(.str s%"{fr}")] := by decide +kernel

-- TestSelect_Value / IdentifierContains
example : Renders (do return Stmt.select (← SelectStmt.Where (← SelectStmt.From (← Verif.select [.val (.str s%"id")]) [.val (.str s%"video")]) (← Ident.Contains (Ident.str s%"languages") (.val (.str s%"{fr}")))))
    s%"SELECT \"id\" FROM \"video\" WHERE (\"languages\" @> '{fr}')"
    s%"SELECT \"id\" FROM \"video\" WHERE (\"languages\" @> $1)"
    s%"SELECT \"id\" FROM \"video\" WHERE (\"languages\" @> :arg_1)"
    [(.str s%"{fr}")] := by decide +kernel

-- TestSelect_Value / IdentifierIsContainsBy
example : Renders (do return Stmt.select (← SelectStmt.Where (← SelectStmt.From (← Verif.select [.val (.str s%"id")]) [.val (.str s%"video")]) (← Ident.IsContainedBy (Ident.str s%"languages") (.val (.str s%"{fr}")))))
    s%"SELECT \"id\" FROM \"video\" WHERE (\"languages\" <@ '{fr}')"
    s%"SELECT \"id\" FROM \"video\" WHERE (\"languages\" <@ $1)"
    s%"SELECT \"id\" FROM \"video\" WHERE (\"languages\" <@ :arg_1)"
    [(.str s%"{fr}")] := by decide +kernel

-- TestSelect_Value / IdentifierOverlap
example : Renders (do return Stmt.select (← SelectStmt.Where (← SelectStmt.From (← Verif.select [.val (.str s%"id")]) [.val (.str s%"video")]) (← Ident.Overlap (Ident.str s%"languages") (.val (.str s%"{fr}")))))
    s%"SELECT \"id\" FROM \"video\" WHERE (\"languages\" && '{fr}')"
    s%"SELECT \"id\" FROM \"video\" WHERE (\"languages\" && $1)"
    s%"SELECT \"id\" FROM \"video\" WHERE (\"languages\" && :arg_1)"
    [(.str s%"{fr}")] := by decide +kernel

-- TestSelect_Comment / Simple
example : Renders (do return Stmt.select (← SelectStmt.Comment (← Verif.select [.val (.str s%"test")]) s%"/foo"))
    s%"SELECT \"test\"; -- /foo"
    s%"SELECT \"test\"; -- /foo"
    s%"SELECT \"test\"; -- /foo"
    [] := by decide +kernel

-- TestSelect_Comment / Complex
example : Renders (do return Stmt.select (← SelectStmt.Comment (← SelectStmt.Where (← SelectStmt.From (← Verif.select [.val (.str s%"test")]) [.val (.str s%"users")]) (← Ident.Equal (Ident.str s%"username") (.val (.str s%"thoas")))) s%"/foo"))
    s%"SELECT \"test\" FROM \"users\" WHERE (\"username\" = 'thoas'); -- /foo"
    s%"SELECT \"test\" FROM \"users\" WHERE (\"username\" = $1); -- /foo"
    s%"SELECT \"test\" FROM \"users\" WHERE (\"username\" = :arg_1); -- /foo"
    [(.str s%"thoas")] := by decide +kernel

-- TestSelect_Columns / Simple
example : Renders (do return Stmt.select (← Verif.select [.val (.str s%"test")]))
    s%"SELECT \"test\""
    s%"SELECT \"test\""
    s%"SELECT \"test\""
    [] := by decide +kernel

-- TestSelect_Columns / Distinct
example : Renders (do return Stmt.select (← SelectStmt.Distinct (← Verif.select [.val (.str s%"test")])))
    s%"SELECT DISTINCT \"test\""
    s%"SELECT DISTINCT \"test\""
    s%"SELECT DISTINCT \"test\""
    [] := by decide +kernel

-- TestSelect_Columns / As
example : Renders (do return Stmt.select (← Verif.select [.selExpr (.column ({ ({ name := s%"test" } : Column) with alias := s%"foobar" } : Column))]))
    s%"SELECT \"test\" AS \"foobar\""
    s%"SELECT \"test\" AS \"foobar\""
    s%"SELECT \"test\" AS \"foobar\""
    [] := by decide +kernel

-- TestSelect_Columns / Two columns
example : Renders (do return Stmt.select (← Verif.select [.val (.str s%"test"), .val (.str s%"foobar")]))
    s%"SELECT \"test\", \"foobar\""
    s%"SELECT \"test\", \"foobar\""
    s%"SELECT \"test\", \"foobar\""
    [] := by decide +kernel

-- TestSelect_Columns / Two columns as
example : Renders (do return Stmt.select (← Verif.select [.val (.str s%"test"), .selExpr (.column ({ ({ name := s%"test2" } : Column) with alias := s%"foobar" } : Column))]))
    s%"SELECT \"test\", \"test2\" AS \"foobar\""
    s%"SELECT \"test\", \"test2\" AS \"foobar\""
    s%"SELECT \"test\", \"test2\" AS \"foobar\""
    [] := by decide +kernel

-- TestSelect_Columns / Three columns as
example : Renders (do return Stmt.select (← Verif.select [.val (.str s%"a"), .val (.str s%"b"), .selExpr (.column ({ ({ name := s%"c" } : Column) with alias := s%"x" } : Column))]))
    s%"SELECT \"a\", \"b\", \"c\" AS \"x\""
    s%"SELECT \"a\", \"b\", \"c\" AS \"x\""
    s%"SELECT \"a\", \"b\", \"c\" AS \"x\""
    [] := by decide +kernel

-- TestSelect_Columns / Three columns as
example : Renders (do return Stmt.select (← Verif.select [.val (.str s%"a"), .selExpr (.column ({ name := s%"b" } : Column)), .selExpr (.column ({ ({ name := s%"c" } : Column) with alias := s%"x" } : Column))]))
    s%"SELECT \"a\", \"b\", \"c\" AS \"x\""
    s%"SELECT \"a\", \"b\", \"c\" AS \"x\""
    s%"SELECT \"a\", \"b\", \"c\" AS \"x\""
    [] := by decide +kernel

-- TestSelect_Columns / Three columns
example : Renders (do return Stmt.select (← Verif.select [.val (.slice .string [(.str s%"a"), (.str s%"b"), (.str s%"c")])]))
    s%"SELECT \"a\", \"b\", \"c\""
    s%"SELECT \"a\", \"b\", \"c\""
    s%"SELECT \"a\", \"b\", \"c\""
    [] := by decide +kernel

-- TestSelect_Columns / Three columns
example : Renders (do return Stmt.select (← Verif.select [.columns [({ name := s%"a" } : Column), ({ name := s%"b" } : Column), ({ name := s%"c" } : Column)]]))
    s%"SELECT \"a\", \"b\", \"c\""
    s%"SELECT \"a\", \"b\", \"c\""
    s%"SELECT \"a\", \"b\", \"c\""
    [] := by decide +kernel

-- TestSelect_Columns / Exists expression
example : Renders (do return Stmt.select (← Verif.select [.expr (← newExists (.selectB (← Verif.select [.expr (.raw s%"1")])))]))
    s%"SELECT EXISTS (SELECT 1)"
    s%"SELECT EXISTS (SELECT 1)"
    s%"SELECT EXISTS (SELECT 1)"
    [] := by decide +kernel

-- TestSelect_Columns / Count expression
example : Renders (do return Stmt.select (← Verif.select [.selExpr (SelExpr.count s%"*" false [])]))
    s%"SELECT COUNT(*)"
    s%"SELECT COUNT(*)"
    s%"SELECT COUNT(*)"
    [] := by decide +kernel

-- TestSelect_Columns / Count expression with alias
example : Renders (do return Stmt.select (← Verif.select [.selExpr (aggAs (SelExpr.count s%"*" false []) s%"counter")]))
    s%"SELECT COUNT(*) AS counter"
    s%"SELECT COUNT(*) AS counter"
    s%"SELECT COUNT(*) AS counter"
    [] := by decide +kernel

-- TestSelect_Columns / Count expression with column
example : Renders (do return Stmt.select (← Verif.select [.selExpr (SelExpr.count s%"id" false [])]))
    s%"SELECT COUNT(id)"
    s%"SELECT COUNT(id)"
    s%"SELECT COUNT(id)"
    [] := by decide +kernel

-- TestSelect_Columns / Count expression with column and alias
example : Renders (do return Stmt.select (← Verif.select [.selExpr (aggAs (SelExpr.count s%"id" false []) s%"counter")]))
    s%"SELECT COUNT(id) AS counter"
    s%"SELECT COUNT(id) AS counter"
    s%"SELECT COUNT(id) AS counter"
    [] := by decide +kernel

-- TestSelect_Columns / Count expression with distinct and column
example : Renders (do return Stmt.select (← Verif.select [.selExpr (countDistinct (SelExpr.count s%"id" false []) true)]))
    s%"SELECT COUNT(DISTINCT id)"
    s%"SELECT COUNT(DISTINCT id)"
    s%"SELECT COUNT(DISTINCT id)"
    [] := by decide +kernel

-- TestSelect_Columns / Count expression with distinct, column and alias
example : Renders (do return Stmt.select (← Verif.select [.selExpr (aggAs (countDistinct (SelExpr.count s%"id" false []) true) s%"counter")]))
    s%"SELECT COUNT(DISTINCT id) AS counter"
    s%"SELECT COUNT(DISTINCT id) AS counter"
    s%"SELECT COUNT(DISTINCT id) AS counter"
    [] := by decide +kernel

-- TestSelect_Columns / Max expression with column
example : Renders (do return Stmt.select (← Verif.select [.selExpr (SelExpr.max s%"amount" [])]))
    s%"SELECT MAX(amount)"
    s%"SELECT MAX(amount)"
    s%"SELECT MAX(amount)"
    [] := by decide +kernel

-- TestSelect_Columns / Max expression with column and alias
example : Renders (do return Stmt.select (← Verif.select [.selExpr (aggAs (SelExpr.max s%"amount" []) s%"max_amount")]))
    s%"SELECT MAX(amount) AS max_amount"
    s%"SELECT MAX(amount) AS max_amount"
    s%"SELECT MAX(amount) AS max_amount"
    [] := by decide +kernel

-- TestSelect_Columns / Min expression with column
example : Renders (do return Stmt.select (← Verif.select [.selExpr (SelExpr.min s%"amount" [])]))
    s%"SELECT MIN(amount)"
    s%"SELECT MIN(amount)"
    s%"SELECT MIN(amount)"
    [] := by decide +kernel

-- TestSelect_Columns / Min expression with column and alias
example : Renders (do return Stmt.select (← Verif.select [.selExpr (aggAs (SelExpr.min s%"amount" []) s%"min_amount")]))
    s%"SELECT MIN(amount) AS min_amount"
    s%"SELECT MIN(amount) AS min_amount"
    s%"SELECT MIN(amount) AS min_amount"
    [] := by decide +kernel

-- TestSelect_Columns / Sum expression with column
example : Renders (do return Stmt.select (← Verif.select [.selExpr (SelExpr.sum s%"amount" [])]))
    s%"SELECT SUM(amount)"
    s%"SELECT SUM(amount)"
    s%"SELECT SUM(amount)"
    [] := by decide +kernel

-- TestSelect_Columns / Sum expression with column and alias
example : Renders (do return Stmt.select (← Verif.select [.selExpr (aggAs (SelExpr.sum s%"amount" []) s%"sum_amount")]))
    s%"SELECT SUM(amount) AS sum_amount"
    s%"SELECT SUM(amount) AS sum_amount"
    s%"SELECT SUM(amount) AS sum_amount"
    [] := by decide +kernel

-- TestSelect_DistinctOn / One column
example : Renders (do return Stmt.select (← SelectStmt.Where (← SelectStmt.From (← SelectStmt.DistinctOn (← Verif.select [.val (.str s%"date")]) [.val (.str s%"id")]) [.val (.str s%"record")]) (← Ident.IsNull (Ident.str s%"disabled") false)))
    s%"SELECT DISTINCT ON (\"id\") \"date\" FROM \"record\" WHERE (\"disabled\" IS NOT NULL)"
    s%"SELECT DISTINCT ON (\"id\") \"date\" FROM \"record\" WHERE (\"disabled\" IS NOT NULL)"
    s%"SELECT DISTINCT ON (\"id\") \"date\" FROM \"record\" WHERE (\"disabled\" IS NOT NULL)"
    [] := by decide +kernel

-- TestSelect_DistinctOn / One column
example : Renders (do return Stmt.select (← SelectStmt.Where (← SelectStmt.From (← SelectStmt.DistinctOn (← Verif.select [.val (.str s%"date")]) [.selExpr (.column ({ name := s%"id" } : Column))]) [.val (.str s%"record")]) (← Ident.IsNull (Ident.str s%"disabled") false)))
    s%"SELECT DISTINCT ON (\"id\") \"date\" FROM \"record\" WHERE (\"disabled\" IS NOT NULL)"
    s%"SELECT DISTINCT ON (\"id\") \"date\" FROM \"record\" WHERE (\"disabled\" IS NOT NULL)"
    s%"SELECT DISTINCT ON (\"id\") \"date\" FROM \"record\" WHERE (\"disabled\" IS NOT NULL)"
    [] := by decide +kernel

-- TestSelect_DistinctOn / Two columns
example : Renders (do return Stmt.select (← SelectStmt.Where (← SelectStmt.From (← SelectStmt.DistinctOn (← Verif.select [.val (.str s%"date")]) [.val (.str s%"id"), .val (.str s%"user_id")]) [.val (.str s%"record")]) (← Ident.IsNull (Ident.str s%"disabled") false)))
    s%"SELECT DISTINCT ON (\"id\", \"user_id\") \"date\" FROM \"record\" WHERE (\"disabled\" IS NOT NULL)"
    s%"SELECT DISTINCT ON (\"id\", \"user_id\") \"date\" FROM \"record\" WHERE (\"disabled\" IS NOT NULL)"
    s%"SELECT DISTINCT ON (\"id\", \"user_id\") \"date\" FROM \"record\" WHERE (\"disabled\" IS NOT NULL)"
    [] := by decide +kernel

-- TestSelect_DistinctOn / Two columns
example : Renders (do return Stmt.select (← SelectStmt.Where (← SelectStmt.From (← SelectStmt.DistinctOn (← Verif.select [.val (.str s%"date")]) [.selExpr (.column ({ name := s%"id" } : Column)), .selExpr (.column ({ name := s%"user_id" } : Column))]) [.val (.str s%"record")]) (← Ident.IsNull (Ident.str s%"disabled") false)))
    s%"SELECT DISTINCT ON (\"id\", \"user_id\") \"date\" FROM \"record\" WHERE (\"disabled\" IS NOT NULL)"
    s%"SELECT DISTINCT ON (\"id\", \"user_id\") \"date\" FROM \"record\" WHERE (\"disabled\" IS NOT NULL)"
    s%"SELECT DISTINCT ON (\"id\", \"user_id\") \"date\" FROM \"record\" WHERE (\"disabled\" IS NOT NULL)"
    [] := by decide +kernel

-- TestSelect_DistinctOn / Three columns
example : Renders (do return Stmt.select (← SelectStmt.Where (← SelectStmt.From (← SelectStmt.DistinctOn (← Verif.select [.val (.str s%"date")]) [.val (.str s%"id"), .val (.str s%"user_id"), .val (.str s%"project_id")]) [.val (.str s%"record")]) (← Ident.IsNull (Ident.str s%"disabled") false)))
    s%"SELECT DISTINCT ON (\"id\", \"user_id\", \"project_id\") \"date\" FROM \"record\" WHERE (\"disabled\" IS NOT NULL)"
    s%"SELECT DISTINCT ON (\"id\", \"user_id\", \"project_id\") \"date\" FROM \"record\" WHERE (\"disabled\" IS NOT NULL)"
    s%"SELECT DISTINCT ON (\"id\", \"user_id\", \"project_id\") \"date\" FROM \"record\" WHERE (\"disabled\" IS NOT NULL)"
    [] := by decide +kernel

-- TestSelect_DistinctOn / Three columns
example : Renders (do return Stmt.select (← SelectStmt.Where (← SelectStmt.From (← SelectStmt.DistinctOn (← Verif.select [.val (.str s%"date")]) [.selExpr (.column ({ name := s%"id" } : Column)), .selExpr (.column ({ name := s%"user_id" } : Column)), .selExpr (.column ({ name := s%"project_id" } : Column))]) [.val (.str s%"record")]) (← Ident.IsNull (Ident.str s%"disabled") false)))
    s%"SELECT DISTINCT ON (\"id\", \"user_id\", \"project_id\") \"date\" FROM \"record\" WHERE (\"disabled\" IS NOT NULL)"
    s%"SELECT DISTINCT ON (\"id\", \"user_id\", \"project_id\") \"date\" FROM \"record\" WHERE (\"disabled\" IS NOT NULL)"
    s%"SELECT DISTINCT ON (\"id\", \"user_id\", \"project_id\") \"date\" FROM \"record\" WHERE (\"disabled\" IS NOT NULL)"
    [] := by decide +kernel

-- TestSelect_From / Simple
example : Renders (do return Stmt.select (← SelectStmt.From (← Verif.select [.val (.str s%"a"), .val (.str s%"b"), .val (.str s%"c")]) [.val (.str s%"foobar")]))
    s%"SELECT \"a\", \"b\", \"c\" FROM \"foobar\""
    s%"SELECT \"a\", \"b\", \"c\" FROM \"foobar\""
    s%"SELECT \"a\", \"b\", \"c\" FROM \"foobar\""
    [] := by decide +kernel

-- TestSelect_From / As
example : Renders (do return Stmt.select (← SelectStmt.From (← Verif.select [.val (.str s%"a")]) [.table ({ ({ name := s%"foobar" } : Table) with alias := s%"example" } : Table)]))
    s%"SELECT \"a\" FROM \"foobar\" AS \"example\""
    s%"SELECT \"a\" FROM \"foobar\" AS \"example\""
    s%"SELECT \"a\" FROM \"foobar\" AS \"example\""
    [] := by decide +kernel

-- TestSelect_From / Multiple
example : Renders (do return Stmt.select (← SelectStmt.From (← Verif.select [.val (.str s%"a")]) [.table ({ ({ name := s%"foobar" } : Table) with alias := s%"example" } : Table), .table ({ ({ name := s%"foobar" } : Table) with alias := s%"example2" } : Table)]))
    s%"SELECT \"a\" FROM \"foobar\" AS \"example\", \"foobar\" AS \"example2\""
    s%"SELECT \"a\" FROM \"foobar\" AS \"example\", \"foobar\" AS \"example2\""
    s%"SELECT \"a\" FROM \"foobar\" AS \"example\", \"foobar\" AS \"example2\""
    [] := by decide +kernel

-- TestSelect_From / Multiple strings
example : Renders (do return Stmt.select (← SelectStmt.From (← Verif.select [.val (.str s%"a")]) [.val (.str s%"example"), .val (.str s%"example2")]))
    s%"SELECT \"a\" FROM \"example\", \"example2\""
    s%"SELECT \"a\" FROM \"example\", \"example2\""
    s%"SELECT \"a\" FROM \"example\", \"example2\""
    [] := by decide +kernel

-- TestSelect_From / Multiple raws
example : Renders (do return Stmt.select (← SelectStmt.From (← Verif.select [.val (.str s%"a")]) [.expr (.raw s%"example1 ex1"), .expr (.raw s%"example2 ex2")]))
    s%"SELECT \"a\" FROM example1 ex1, example2 ex2"
    s%"SELECT \"a\" FROM example1 ex1, example2 ex2"
    s%"SELECT \"a\" FROM example1 ex1, example2 ex2"
    [] := by decide +kernel

-- TestSelect_From / Multiple raw
example : Renders (do return Stmt.select (← SelectStmt.From (← Verif.select [.val (.str s%"a")]) [.expr (.raw s%"example1 ex1, example2 ex2")]))
    s%"SELECT \"a\" FROM example1 ex1, example2 ex2"
    s%"SELECT \"a\" FROM example1 ex1, example2 ex2"
    s%"SELECT \"a\" FROM example1 ex1, example2 ex2"
    [] := by decide +kernel

-- TestSelect_Join / Inner
example : Renders (do return Stmt.select (← SelectStmt.Join (← SelectStmt.From (← Verif.select [.val (.str s%"a"), .val (.str s%"b"), .val (.str s%"c")]) [.val (.str s%"test1")]) [.val (.str s%"test2 ON test1.id = test2.fk_id")]))
    s%"SELECT \"a\", \"b\", \"c\" FROM \"test1\" INNER JOIN \"test2\" ON \"test1\".\"id\" = \"test2\".\"fk_id\""
    s%"SELECT \"a\", \"b\", \"c\" FROM \"test1\" INNER JOIN \"test2\" ON \"test1\".\"id\" = \"test2\".\"fk_id\""
    s%"SELECT \"a\", \"b\", \"c\" FROM \"test1\" INNER JOIN \"test2\" ON \"test1\".\"id\" = \"test2\".\"fk_id\""
    [] := by decide +kernel

-- TestSelect_Join / Inner
example : Renders (do return Stmt.select (← SelectStmt.Join (← SelectStmt.From (← Verif.select [.val (.str s%"a"), .val (.str s%"b"), .val (.str s%"c")]) [.val (.str s%"test1")]) [.val (.str s%"test2"), .val (.str s%"test1.id = test2.fk_id")]))
    s%"SELECT \"a\", \"b\", \"c\" FROM \"test1\" INNER JOIN \"test2\" ON \"test1\".\"id\" = \"test2\".\"fk_id\""
    s%"SELECT \"a\", \"b\", \"c\" FROM \"test1\" INNER JOIN \"test2\" ON \"test1\".\"id\" = \"test2\".\"fk_id\""
    s%"SELECT \"a\", \"b\", \"c\" FROM \"test1\" INNER JOIN \"test2\" ON \"test1\".\"id\" = \"test2\".\"fk_id\""
    [] := by decide +kernel

-- TestSelect_Join / Inner
example : Renders (do return Stmt.select (← SelectStmt.Join (← SelectStmt.From (← Verif.select [.val (.str s%"a"), .val (.str s%"b"), .val (.str s%"c")]) [.val (.str s%"test1")]) [.val (.str s%"test2"), .val (.str s%"test1.id = test2.fk_id"), .joinType Types.InnerJoin]))
    s%"SELECT \"a\", \"b\", \"c\" FROM \"test1\" INNER JOIN \"test2\" ON \"test1\".\"id\" = \"test2\".\"fk_id\""
    s%"SELECT \"a\", \"b\", \"c\" FROM \"test1\" INNER JOIN \"test2\" ON \"test1\".\"id\" = \"test2\".\"fk_id\""
    s%"SELECT \"a\", \"b\", \"c\" FROM \"test1\" INNER JOIN \"test2\" ON \"test1\".\"id\" = \"test2\".\"fk_id\""
    [] := by decide +kernel

-- TestSelect_Join / Inner
example : Renders (do return Stmt.select (← SelectStmt.Join (← SelectStmt.From (← Verif.select [.val (.str s%"a"), .val (.str s%"b"), .val (.str s%"c")]) [.val (.str s%"test1")]) [.val (.str s%"test2"), .val (.str s%"ON test1.id = test2.fk_id")]))
    s%"SELECT \"a\", \"b\", \"c\" FROM \"test1\" INNER JOIN \"test2\" ON \"test1\".\"id\" = \"test2\".\"fk_id\""
    s%"SELECT \"a\", \"b\", \"c\" FROM \"test1\" INNER JOIN \"test2\" ON \"test1\".\"id\" = \"test2\".\"fk_id\""
    s%"SELECT \"a\", \"b\", \"c\" FROM \"test1\" INNER JOIN \"test2\" ON \"test1\".\"id\" = \"test2\".\"fk_id\""
    [] := by decide +kernel

-- TestSelect_Join / Inner
example : Renders (do return Stmt.select (← SelectStmt.Join (← SelectStmt.From (← Verif.select [.val (.str s%"a"), .val (.str s%"b"), .val (.str s%"c")]) [.val (.str s%"test1")]) [.val (.str s%"test2"), .val (.str s%"ON test1.id = test2.fk_id"), .joinType Types.InnerJoin]))
    s%"SELECT \"a\", \"b\", \"c\" FROM \"test1\" INNER JOIN \"test2\" ON \"test1\".\"id\" = \"test2\".\"fk_id\""
    s%"SELECT \"a\", \"b\", \"c\" FROM \"test1\" INNER JOIN \"test2\" ON \"test1\".\"id\" = \"test2\".\"fk_id\""
    s%"SELECT \"a\", \"b\", \"c\" FROM \"test1\" INNER JOIN \"test2\" ON \"test1\".\"id\" = \"test2\".\"fk_id\""
    [] := by decide +kernel

-- TestSelect_Join / Left
example : Renders (do return Stmt.select (← SelectStmt.Join (← SelectStmt.From (← Verif.select [.val (.str s%"a"), .val (.str s%"b"), .val (.str s%"c")]) [.val (.str s%"test1")]) [.val (.str s%"test3"), .val (.str s%"test3.fkey = test1.id"), .joinType Types.LeftJoin]))
    s%"SELECT \"a\", \"b\", \"c\" FROM \"test1\" LEFT JOIN \"test3\" ON \"test3\".\"fkey\" = \"test1\".\"id\""
    s%"SELECT \"a\", \"b\", \"c\" FROM \"test1\" LEFT JOIN \"test3\" ON \"test3\".\"fkey\" = \"test1\".\"id\""
    s%"SELECT \"a\", \"b\", \"c\" FROM \"test1\" LEFT JOIN \"test3\" ON \"test3\".\"fkey\" = \"test1\".\"id\""
    [] := by decide +kernel

-- TestSelect_Join / Right
example : Renders (do return Stmt.select (← SelectStmt.Join (← SelectStmt.From (← Verif.select [.val (.str s%"a"), .val (.str s%"b"), .val (.str s%"c")]) [.val (.str s%"test2")]) [.val (.str s%"test4"), .val (.str s%"test4.gid = test2.id"), .joinType Types.RightJoin]))
    s%"SELECT \"a\", \"b\", \"c\" FROM \"test2\" RIGHT JOIN \"test4\" ON \"test4\".\"gid\" = \"test2\".\"id\""
    s%"SELECT \"a\", \"b\", \"c\" FROM \"test2\" RIGHT JOIN \"test4\" ON \"test4\".\"gid\" = \"test2\".\"id\""
    s%"SELECT \"a\", \"b\", \"c\" FROM \"test2\" RIGHT JOIN \"test4\" ON \"test4\".\"gid\" = \"test2\".\"id\""
    [] := by decide +kernel

-- TestSelect_Join / Left Outer
example : Renders (do return Stmt.select (← SelectStmt.Join (← SelectStmt.From (← Verif.select [.val (.str s%"a"), .val (.str s%"b"), .val (.str s%"c")]) [.val (.str s%"test1")]) [.val (.str s%"test3"), .val (.str s%"test3.fkey = test1.id"), .joinType Types.LeftOuterJoin]))
    s%"SELECT \"a\", \"b\", \"c\" FROM \"test1\" LEFT OUTER JOIN \"test3\" ON \"test3\".\"fkey\" = \"test1\".\"id\""
    s%"SELECT \"a\", \"b\", \"c\" FROM \"test1\" LEFT OUTER JOIN \"test3\" ON \"test3\".\"fkey\" = \"test1\".\"id\""
    s%"SELECT \"a\", \"b\", \"c\" FROM \"test1\" LEFT OUTER JOIN \"test3\" ON \"test3\".\"fkey\" = \"test1\".\"id\""
    [] := by decide +kernel

-- TestSelect_Join / Right Outer
example : Renders (do return Stmt.select (← SelectStmt.Join (← SelectStmt.From (← Verif.select [.val (.str s%"a"), .val (.str s%"b"), .val (.str s%"c")]) [.val (.str s%"test1")]) [.val (.str s%"test3"), .val (.str s%"test3.fkey = test1.id"), .joinType Types.RightOuterJoin]))
    s%"SELECT \"a\", \"b\", \"c\" FROM \"test1\" RIGHT OUTER JOIN \"test3\" ON \"test3\".\"fkey\" = \"test1\".\"id\""
    s%"SELECT \"a\", \"b\", \"c\" FROM \"test1\" RIGHT OUTER JOIN \"test3\" ON \"test3\".\"fkey\" = \"test1\".\"id\""
    s%"SELECT \"a\", \"b\", \"c\" FROM \"test1\" RIGHT OUTER JOIN \"test3\" ON \"test3\".\"fkey\" = \"test1\".\"id\""
    [] := by decide +kernel

-- TestSelect_Join / Two tables
example : Renders (do return Stmt.select (← SelectStmt.Join (← SelectStmt.Join (← SelectStmt.From (← Verif.select [.val (.str s%"a"), .val (.str s%"b"), .val (.str s%"c")]) [.val (.str s%"test2")]) [.val (.str s%"test4"), .val (.str s%"test4.gid = test2.id")]) [.val (.str s%"test3"), .val (.str s%"test4.uid = test3.id")]))
    s%"SELECT \"a\", \"b\", \"c\" FROM \"test2\" INNER JOIN \"test4\" ON \"test4\".\"gid\" = \"test2\".\"id\" INNER JOIN \"test3\" ON \"test4\".\"uid\" = \"test3\".\"id\""
    s%"SELECT \"a\", \"b\", \"c\" FROM \"test2\" INNER JOIN \"test4\" ON \"test4\".\"gid\" = \"test2\".\"id\" INNER JOIN \"test3\" ON \"test4\".\"uid\" = \"test3\".\"id\""
    s%"SELECT \"a\", \"b\", \"c\" FROM \"test2\" INNER JOIN \"test4\" ON \"test4\".\"gid\" = \"test2\".\"id\" INNER JOIN \"test3\" ON \"test4\".\"uid\" = \"test3\".\"id\""
    [] := by decide +kernel

-- TestSelect_Join / Two tables
example : Renders (do return Stmt.select (← SelectStmt.Join (← SelectStmt.Join (← SelectStmt.From (← Verif.select [.val (.str s%"a"), .val (.str s%"b"), .val (.str s%"c")]) [.val (.str s%"test2")]) [.val (.str s%"test4"), .expr (Expr.onClause { name := s%"test4.gid" } { name := s%"test2.id" })]) [.val (.str s%"test3"), .expr (Expr.onClause { name := s%"test4.uid" } { name := s%"test3.id" })]))
    s%"SELECT \"a\", \"b\", \"c\" FROM \"test2\" INNER JOIN \"test4\" ON \"test4\".\"gid\" = \"test2\".\"id\" INNER JOIN \"test3\" ON \"test4\".\"uid\" = \"test3\".\"id\""
    s%"SELECT \"a\", \"b\", \"c\" FROM \"test2\" INNER JOIN \"test4\" ON \"test4\".\"gid\" = \"test2\".\"id\" INNER JOIN \"test3\" ON \"test4\".\"uid\" = \"test3\".\"id\""
    s%"SELECT \"a\", \"b\", \"c\" FROM \"test2\" INNER JOIN \"test4\" ON \"test4\".\"gid\" = \"test2\".\"id\" INNER JOIN \"test3\" ON \"test4\".\"uid\" = \"test3\".\"id\""
    [] := by decide +kernel

-- TestSelect_Join / Two tables
example : Renders (do return Stmt.select (← SelectStmt.Join (← SelectStmt.Join (← SelectStmt.From (← Verif.select [.val (.str s%"a"), .val (.str s%"b"), .val (.str s%"c")]) [.val (.str s%"test2")]) [.table ({ name := s%"test4" } : Table), .expr (Expr.onClause { name := s%"test4.gid" } { name := s%"test2.id" })]) [.table ({ name := s%"test3" } : Table), .expr (Expr.onClause { name := s%"test4.uid" } { name := s%"test3.id" })]))
    s%"SELECT \"a\", \"b\", \"c\" FROM \"test2\" INNER JOIN \"test4\" ON \"test4\".\"gid\" = \"test2\".\"id\" INNER JOIN \"test3\" ON \"test4\".\"uid\" = \"test3\".\"id\""
    s%"SELECT \"a\", \"b\", \"c\" FROM \"test2\" INNER JOIN \"test4\" ON \"test4\".\"gid\" = \"test2\".\"id\" INNER JOIN \"test3\" ON \"test4\".\"uid\" = \"test3\".\"id\""
    s%"SELECT \"a\", \"b\", \"c\" FROM \"test2\" INNER JOIN \"test4\" ON \"test4\".\"gid\" = \"test2\".\"id\" INNER JOIN \"test3\" ON \"test4\".\"uid\" = \"test3\".\"id\""
    [] := by decide +kernel

-- TestSelect_Join / Two tables and two statements
example : Renders (do return Stmt.select (← SelectStmt.Join (← SelectStmt.Join (← SelectStmt.From (← Verif.select [.val (.str s%"a"), .val (.str s%"b"), .val (.str s%"c")]) [.val (.str s%"test2")]) [.val (.str s%"test4"), .val (.str s%"test4.gid = test2.id AND test4.d = test2.d")]) [.val (.str s%"test3"), .val (.str s%"test4.uid = test3.id AND test3.e = test2.e")]))
    s%"SELECT \"a\", \"b\", \"c\" FROM \"test2\" INNER JOIN \"test4\" ON (\"test4\".\"gid\" = \"test2\".\"id\" AND \"test4\".\"d\" = \"test2\".\"d\") INNER JOIN \"test3\" ON (\"test4\".\"uid\" = \"test3\".\"id\" AND \"test3\".\"e\" = \"test2\".\"e\")"
    s%"SELECT \"a\", \"b\", \"c\" FROM \"test2\" INNER JOIN \"test4\" ON (\"test4\".\"gid\" = \"test2\".\"id\" AND \"test4\".\"d\" = \"test2\".\"d\") INNER JOIN \"test3\" ON (\"test4\".\"uid\" = \"test3\".\"id\" AND \"test3\".\"e\" = \"test2\".\"e\")"
    s%"SELECT \"a\", \"b\", \"c\" FROM \"test2\" INNER JOIN \"test4\" ON (\"test4\".\"gid\" = \"test2\".\"id\" AND \"test4\".\"d\" = \"test2\".\"d\") INNER JOIN \"test3\" ON (\"test4\".\"uid\" = \"test3\".\"id\" AND \"test3\".\"e\" = \"test2\".\"e\")"
    [] := by decide +kernel

-- TestSelect_Join / Two tables and two statements
example : Renders (do return Stmt.select (← SelectStmt.Join (← SelectStmt.Join (← SelectStmt.From (← Verif.select [.val (.str s%"a"), .val (.str s%"b"), .val (.str s%"c")]) [.val (.str s%"test2")]) [.val (.str s%"test4"), .expr (onAnd (Expr.onClause { name := s%"test4.gid" } { name := s%"test2.id" }) (Expr.onClause { name := s%"test4.d" } { name := s%"test2.d" }))]) [.val (.str s%"test3"), .expr (onAnd (Expr.onClause { name := s%"test4.uid" } { name := s%"test3.id" }) (Expr.onClause { name := s%"test3.e" } { name := s%"test2.e" }))]))
    s%"SELECT \"a\", \"b\", \"c\" FROM \"test2\" INNER JOIN \"test4\" ON (\"test4\".\"gid\" = \"test2\".\"id\" AND \"test4\".\"d\" = \"test2\".\"d\") INNER JOIN \"test3\" ON (\"test4\".\"uid\" = \"test3\".\"id\" AND \"test3\".\"e\" = \"test2\".\"e\")"
    s%"SELECT \"a\", \"b\", \"c\" FROM \"test2\" INNER JOIN \"test4\" ON (\"test4\".\"gid\" = \"test2\".\"id\" AND \"test4\".\"d\" = \"test2\".\"d\") INNER JOIN \"test3\" ON (\"test4\".\"uid\" = \"test3\".\"id\" AND \"test3\".\"e\" = \"test2\".\"e\")"
    s%"SELECT \"a\", \"b\", \"c\" FROM \"test2\" INNER JOIN \"test4\" ON (\"test4\".\"gid\" = \"test2\".\"id\" AND \"test4\".\"d\" = \"test2\".\"d\") INNER JOIN \"test3\" ON (\"test4\".\"uid\" = \"test3\".\"id\" AND \"test3\".\"e\" = \"test2\".\"e\")"
    [] := by decide +kernel

-- TestSelect_Join / Two tables and two statements
example : Renders (do return Stmt.select (← SelectStmt.Join (← SelectStmt.Join (← SelectStmt.From (← Verif.select [.val (.str s%"a"), .val (.str s%"b"), .val (.str s%"c")]) [.val (.str s%"test2")]) [.table ({ name := s%"test4" } : Table), .expr (onAnd (Expr.onClause { name := s%"test4.gid" } { name := s%"test2.id" }) (Expr.onClause { name := s%"test4.d" } { name := s%"test2.d" }))]) [.table ({ name := s%"test3" } : Table), .expr (onAnd (Expr.onClause { name := s%"test4.uid" } { name := s%"test3.id" }) (Expr.onClause { name := s%"test3.e" } { name := s%"test2.e" }))]))
    s%"SELECT \"a\", \"b\", \"c\" FROM \"test2\" INNER JOIN \"test4\" ON (\"test4\".\"gid\" = \"test2\".\"id\" AND \"test4\".\"d\" = \"test2\".\"d\") INNER JOIN \"test3\" ON (\"test4\".\"uid\" = \"test3\".\"id\" AND \"test3\".\"e\" = \"test2\".\"e\")"
    s%"SELECT \"a\", \"b\", \"c\" FROM \"test2\" INNER JOIN \"test4\" ON (\"test4\".\"gid\" = \"test2\".\"id\" AND \"test4\".\"d\" = \"test2\".\"d\") INNER JOIN \"test3\" ON (\"test4\".\"uid\" = \"test3\".\"id\" AND \"test3\".\"e\" = \"test2\".\"e\")"
    s%"SELECT \"a\", \"b\", \"c\" FROM \"test2\" INNER JOIN \"test4\" ON (\"test4\".\"gid\" = \"test2\".\"id\" AND \"test4\".\"d\" = \"test2\".\"d\") INNER JOIN \"test3\" ON (\"test4\".\"uid\" = \"test3\".\"id\" AND \"test3\".\"e\" = \"test2\".\"e\")"
    [] := by decide +kernel

-- TestSelect_Join / Two tables and three statements
example : Renders (do return Stmt.select (← SelectStmt.Join (← SelectStmt.Join (← SelectStmt.From (← Verif.select [.val (.str s%"a"), .val (.str s%"b"), .val (.str s%"c")]) [.val (.str s%"test2")]) [.val (.str s%"test4"), .val (.str s%"test4.gid = test2.id AND test4.d = test2.d OR test4.f = test2.f")]) [.val (.str s%"test3"), .val (.str s%"test4.uid = test3.id OR test3.e = test2.e AND test3.g = test2.g")]))
    s%"SELECT \"a\", \"b\", \"c\" FROM \"test2\" INNER JOIN \"test4\" ON ((\"test4\".\"gid\" = \"test2\".\"id\" AND \"test4\".\"d\" = \"test2\".\"d\") OR \"test4\".\"f\" = \"test2\".\"f\") INNER JOIN \"test3\" ON ((\"test4\".\"uid\" = \"test3\".\"id\" OR \"test3\".\"e\" = \"test2\".\"e\") AND \"test3\".\"g\" = \"test2\".\"g\")"
    s%"SELECT \"a\", \"b\", \"c\" FROM \"test2\" INNER JOIN \"test4\" ON ((\"test4\".\"gid\" = \"test2\".\"id\" AND \"test4\".\"d\" = \"test2\".\"d\") OR \"test4\".\"f\" = \"test2\".\"f\") INNER JOIN \"test3\" ON ((\"test4\".\"uid\" = \"test3\".\"id\" OR \"test3\".\"e\" = \"test2\".\"e\") AND \"test3\".\"g\" = \"test2\".\"g\")"
    s%"SELECT \"a\", \"b\", \"c\" FROM \"test2\" INNER JOIN \"test4\" ON ((\"test4\".\"gid\" = \"test2\".\"id\" AND \"test4\".\"d\" = \"test2\".\"d\") OR \"test4\".\"f\" = \"test2\".\"f\") INNER JOIN \"test3\" ON ((\"test4\".\"uid\" = \"test3\".\"id\" OR \"test3\".\"e\" = \"test2\".\"e\") AND \"test3\".\"g\" = \"test2\".\"g\")"
    [] := by decide +kernel

-- TestSelect_Join / Two tables and three statements
example : Renders (do return Stmt.select (← SelectStmt.Join (← SelectStmt.Join (← SelectStmt.From (← Verif.select [.val (.str s%"a"), .val (.str s%"b"), .val (.str s%"c")]) [.val (.str s%"test2")]) [.val (.str s%"test4"), .expr (onOr (onAnd (Expr.onClause { name := s%"test4.gid" } { name := s%"test2.id" }) (Expr.onClause { name := s%"test4.d" } { name := s%"test2.d" })) (Expr.onClause { name := s%"test4.f" } { name := s%"test2.f" }))]) [.val (.str s%"test3"), .expr (onAnd (onOr (Expr.onClause { name := s%"test4.uid" } { name := s%"test3.id" }) (Expr.onClause { name := s%"test3.e" } { name := s%"test2.e" })) (Expr.onClause { name := s%"test3.g" } { name := s%"test2.g" }))]))
    s%"SELECT \"a\", \"b\", \"c\" FROM \"test2\" INNER JOIN \"test4\" ON ((\"test4\".\"gid\" = \"test2\".\"id\" AND \"test4\".\"d\" = \"test2\".\"d\") OR \"test4\".\"f\" = \"test2\".\"f\") INNER JOIN \"test3\" ON ((\"test4\".\"uid\" = \"test3\".\"id\" OR \"test3\".\"e\" = \"test2\".\"e\") AND \"test3\".\"g\" = \"test2\".\"g\")"
    s%"SELECT \"a\", \"b\", \"c\" FROM \"test2\" INNER JOIN \"test4\" ON ((\"test4\".\"gid\" = \"test2\".\"id\" AND \"test4\".\"d\" = \"test2\".\"d\") OR \"test4\".\"f\" = \"test2\".\"f\") INNER JOIN \"test3\" ON ((\"test4\".\"uid\" = \"test3\".\"id\" OR \"test3\".\"e\" = \"test2\".\"e\") AND \"test3\".\"g\" = \"test2\".\"g\")"
    s%"SELECT \"a\", \"b\", \"c\" FROM \"test2\" INNER JOIN \"test4\" ON ((\"test4\".\"gid\" = \"test2\".\"id\" AND \"test4\".\"d\" = \"test2\".\"d\") OR \"test4\".\"f\" = \"test2\".\"f\") INNER JOIN \"test3\" ON ((\"test4\".\"uid\" = \"test3\".\"id\" OR \"test3\".\"e\" = \"test2\".\"e\") AND \"test3\".\"g\" = \"test2\".\"g\")"
    [] := by decide +kernel

-- TestSelect_Join / Two tables and three statements
example : Renders (do return Stmt.select (← SelectStmt.Join (← SelectStmt.Join (← SelectStmt.From (← Verif.select [.val (.str s%"a"), .val (.str s%"b"), .val (.str s%"c")]) [.val (.str s%"test2")]) [.table ({ name := s%"test4" } : Table), .expr (onOr (onAnd (Expr.onClause { name := s%"test4.gid" } { name := s%"test2.id" }) (Expr.onClause { name := s%"test4.d" } { name := s%"test2.d" })) (Expr.onClause { name := s%"test4.f" } { name := s%"test2.f" }))]) [.table ({ name := s%"test3" } : Table), .expr (onAnd (onOr (Expr.onClause { name := s%"test4.uid" } { name := s%"test3.id" }) (Expr.onClause { name := s%"test3.e" } { name := s%"test2.e" })) (Expr.onClause { name := s%"test3.g" } { name := s%"test2.g" }))]))
    s%"SELECT \"a\", \"b\", \"c\" FROM \"test2\" INNER JOIN \"test4\" ON ((\"test4\".\"gid\" = \"test2\".\"id\" AND \"test4\".\"d\" = \"test2\".\"d\") OR \"test4\".\"f\" = \"test2\".\"f\") INNER JOIN \"test3\" ON ((\"test4\".\"uid\" = \"test3\".\"id\" OR \"test3\".\"e\" = \"test2\".\"e\") AND \"test3\".\"g\" = \"test2\".\"g\")"
    s%"SELECT \"a\", \"b\", \"c\" FROM \"test2\" INNER JOIN \"test4\" ON ((\"test4\".\"gid\" = \"test2\".\"id\" AND \"test4\".\"d\" = \"test2\".\"d\") OR \"test4\".\"f\" = \"test2\".\"f\") INNER JOIN \"test3\" ON ((\"test4\".\"uid\" = \"test3\".\"id\" OR \"test3\".\"e\" = \"test2\".\"e\") AND \"test3\".\"g\" = \"test2\".\"g\")"
    s%"SELECT \"a\", \"b\", \"c\" FROM \"test2\" INNER JOIN \"test4\" ON ((\"test4\".\"gid\" = \"test2\".\"id\" AND \"test4\".\"d\" = \"test2\".\"d\") OR \"test4\".\"f\" = \"test2\".\"f\") INNER JOIN \"test3\" ON ((\"test4\".\"uid\" = \"test3\".\"id\" OR \"test3\".\"e\" = \"test2\".\"e\") AND \"test3\".\"g\" = \"test2\".\"g\")"
    [] := by decide +kernel
end Verif.Tests
