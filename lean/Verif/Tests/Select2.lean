import Verif.Tests.Harness

/-! Conformance tests: builder/select_test.go, second part. -/

namespace Verif.Tests

attribute [local instance] Runtime.sample

-- TestSelect_WhereOperatorOrder / Simple
example : Renders (do return Stmt.select (← SelectStmt.Where (← SelectStmt.From (← Verif.select [.val (.str s%"id")]) [.val (.str s%"table")]) (← Ident.Equal (Ident.str s%"id") (.val (.int .int 1)))))
    s%"SELECT \"id\" FROM \"table\" WHERE (\"id\" = 1)"
    s%"SELECT \"id\" FROM \"table\" WHERE (\"id\" = $1)"
    s%"SELECT \"id\" FROM \"table\" WHERE (\"id\" = :arg_1)"
    [(.int .int 1)] := by decide +kernel

-- TestSelect_WhereOperatorOrder / And
example : Renders (do return Stmt.select (← SelectStmt.And (← SelectStmt.Where (← SelectStmt.From (← Verif.select [.val (.str s%"id")]) [.val (.str s%"table")]) (← Ident.Equal (Ident.str s%"id") (.val (.int .int 1)))) (← Ident.Equal (Ident.str s%"slug") (.val (.str s%"foo")))))
    s%"SELECT \"id\" FROM \"table\" WHERE ((\"id\" = 1) AND (\"slug\" = 'foo'))"
    s%"SELECT \"id\" FROM \"table\" WHERE ((\"id\" = $1) AND (\"slug\" = $2))"
    s%"SELECT \"id\" FROM \"table\" WHERE ((\"id\" = :arg_1) AND (\"slug\" = :arg_2))"
    [(.int .int 1), (.str s%"foo")] := by decide +kernel

-- TestSelect_WhereOperatorOrder / And with three expressions
example : Renders (do return Stmt.select (← SelectStmt.And (← SelectStmt.And (← SelectStmt.Where (← SelectStmt.From (← Verif.select [.val (.str s%"id")]) [.val (.str s%"table")]) (← Ident.Equal (Ident.str s%"id") (.val (.int .int 1)))) (← Ident.Equal (Ident.str s%"slug") (.val (.str s%"foo")))) (← Ident.Equal (Ident.str s%"title") (.val (.str s%"hello")))))
    s%"SELECT \"id\" FROM \"table\" WHERE (((\"id\" = 1) AND (\"slug\" = 'foo')) AND (\"title\" = 'hello'))"
    s%"SELECT \"id\" FROM \"table\" WHERE (((\"id\" = $1) AND (\"slug\" = $2)) AND (\"title\" = $3))"
    s%"SELECT \"id\" FROM \"table\" WHERE (((\"id\" = :arg_1) AND (\"slug\" = :arg_2)) AND (\"title\" = :arg_3))"
    [(.int .int 1), (.str s%"foo"), (.str s%"hello")] := by decide +kernel

-- TestSelect_WhereOperatorOrder / Or
example : Renders (do return Stmt.select (← SelectStmt.Or (← SelectStmt.Or (← SelectStmt.Where (← SelectStmt.From (← Verif.select [.val (.str s%"id")]) [.val (.str s%"table")]) (← Ident.Equal (Ident.str s%"id") (.val (.int .int 1)))) (← Ident.Equal (Ident.str s%"slug") (.val (.str s%"foo")))) (← Ident.Equal (Ident.str s%"title") (.val (.str s%"hello")))))
    s%"SELECT \"id\" FROM \"table\" WHERE (((\"id\" = 1) OR (\"slug\" = 'foo')) OR (\"title\" = 'hello'))"
    s%"SELECT \"id\" FROM \"table\" WHERE (((\"id\" = $1) OR (\"slug\" = $2)) OR (\"title\" = $3))"
    s%"SELECT \"id\" FROM \"table\" WHERE (((\"id\" = :arg_1) OR (\"slug\" = :arg_2)) OR (\"title\" = :arg_3))"
    [(.int .int 1), (.str s%"foo"), (.str s%"hello")] := by decide +kernel

-- TestSelect_WhereOperatorOrder / Or with And
example : Renders (do return Stmt.select (← SelectStmt.Or (← SelectStmt.And (← SelectStmt.Where (← SelectStmt.From (← Verif.select [.val (.str s%"id")]) [.val (.str s%"table")]) (← Ident.Equal (Ident.str s%"id") (.val (.int .int 1)))) (← Ident.Equal (Ident.str s%"slug") (.val (.str s%"foo")))) (← Ident.Equal (Ident.str s%"title") (.val (.str s%"hello")))))
    s%"SELECT \"id\" FROM \"table\" WHERE (((\"id\" = 1) AND (\"slug\" = 'foo')) OR (\"title\" = 'hello'))"
    s%"SELECT \"id\" FROM \"table\" WHERE (((\"id\" = $1) AND (\"slug\" = $2)) OR (\"title\" = $3))"
    s%"SELECT \"id\" FROM \"table\" WHERE (((\"id\" = :arg_1) AND (\"slug\" = :arg_2)) OR (\"title\" = :arg_3))"
    [(.int .int 1), (.str s%"foo"), (.str s%"hello")] := by decide +kernel

-- TestSelect_WhereOperatorOrder / Or with And nested with 4 subexpressions
example : Renders (do return Stmt.select (← SelectStmt.Or (← SelectStmt.Where (← SelectStmt.From (← Verif.select [.val (.str s%"id")]) [.val (.str s%"table")]) (plainOr (← Ident.Equal (Ident.str s%"id") (.val (.int .int 1))) (← Ident.Equal (Ident.str s%"title") (.val (.str s%"hello"))))) (plainAnd (← Ident.Equal (Ident.str s%"slug") (.val (.str s%"foo"))) (← Ident.Equal (Ident.str s%"active") (.val (.bool true))))))
    s%"SELECT \"id\" FROM \"table\" WHERE (((\"id\" = 1) OR (\"title\" = 'hello')) OR ((\"slug\" = 'foo') AND (\"active\" = true)))"
    s%"SELECT \"id\" FROM \"table\" WHERE (((\"id\" = $1) OR (\"title\" = $2)) OR ((\"slug\" = $3) AND (\"active\" = $4)))"
    s%"SELECT \"id\" FROM \"table\" WHERE (((\"id\" = :arg_1) OR (\"title\" = :arg_2)) OR ((\"slug\" = :arg_3) AND (\"active\" = :arg_4)))"
    [(.int .int 1), (.str s%"hello"), (.str s%"foo"), (.bool true)] := by decide +kernel

-- TestSelect_WhereOperatorOrder / Simple And
example : Renders (do return Stmt.select (← SelectStmt.Where (← SelectStmt.From (← Verif.select [.val (.str s%"id")]) [.val (.str s%"table")]) (plainAnd (← Ident.Equal (Ident.str s%"id") (.val (.int .int 1))) (← Ident.Equal (Ident.str s%"title") (.val (.str s%"hello"))))))
    s%"SELECT \"id\" FROM \"table\" WHERE ((\"id\" = 1) AND (\"title\" = 'hello'))"
    s%"SELECT \"id\" FROM \"table\" WHERE ((\"id\" = $1) AND (\"title\" = $2))"
    s%"SELECT \"id\" FROM \"table\" WHERE ((\"id\" = :arg_1) AND (\"title\" = :arg_2))"
    [(.int .int 1), (.str s%"hello")] := by decide +kernel

-- TestSelect_WhereOperatorOrder / Simple And
example : Renders (do return Stmt.select (← SelectStmt.Where (← SelectStmt.Where (← SelectStmt.From (← Verif.select [.val (.str s%"id")]) [.val (.str s%"table")]) (← Ident.Equal (Ident.str s%"id") (.val (.int .int 1)))) (← Ident.Equal (Ident.str s%"title") (.val (.str s%"hello")))))
    s%"SELECT \"id\" FROM \"table\" WHERE ((\"id\" = 1) AND (\"title\" = 'hello'))"
    s%"SELECT \"id\" FROM \"table\" WHERE ((\"id\" = $1) AND (\"title\" = $2))"
    s%"SELECT \"id\" FROM \"table\" WHERE ((\"id\" = :arg_1) AND (\"title\" = :arg_2))"
    [(.int .int 1), (.str s%"hello")] := by decide +kernel

-- TestSelect_WhereOperatorOrder / Three wheres
example : Renders (do return Stmt.select (← SelectStmt.Where (← SelectStmt.Where (← SelectStmt.Where (← SelectStmt.From (← Verif.select [.val (.str s%"id")]) [.val (.str s%"table")]) (← Ident.Equal (Ident.str s%"id") (.val (.int .int 1)))) (← Ident.Equal (Ident.str s%"title") (.val (.str s%"hello")))) (← Ident.Equal (Ident.str s%"disable") (.val (.bool false)))))
    s%"SELECT \"id\" FROM \"table\" WHERE (((\"id\" = 1) AND (\"title\" = 'hello')) AND (\"disable\" = false))"
    s%"SELECT \"id\" FROM \"table\" WHERE (((\"id\" = $1) AND (\"title\" = $2)) AND (\"disable\" = $3))"
    s%"SELECT \"id\" FROM \"table\" WHERE (((\"id\" = :arg_1) AND (\"title\" = :arg_2)) AND (\"disable\" = :arg_3))"
    [(.int .int 1), (.str s%"hello"), (.bool false)] := by decide +kernel

-- TestSelect_WhereOperatorOrder / Where Or
example : Renders (do return Stmt.select (← SelectStmt.Or (← SelectStmt.Where (← SelectStmt.From (← Verif.select [.val (.str s%"id")]) [.val (.str s%"table")]) (← Ident.Equal (Ident.str s%"id") (.val (.int .int 1)))) (infixAnd (← Ident.Equal (Ident.str s%"slug") (.val (.str s%"foo"))) (← Ident.Equal (Ident.str s%"active") (.val (.bool true))))))
    s%"SELECT \"id\" FROM \"table\" WHERE ((\"id\" = 1) OR ((\"slug\" = 'foo') AND (\"active\" = true)))"
    s%"SELECT \"id\" FROM \"table\" WHERE ((\"id\" = $1) OR ((\"slug\" = $2) AND (\"active\" = $3)))"
    s%"SELECT \"id\" FROM \"table\" WHERE ((\"id\" = :arg_1) OR ((\"slug\" = :arg_2) AND (\"active\" = :arg_3)))"
    [(.int .int 1), (.str s%"foo"), (.bool true)] := by decide +kernel

-- TestSelect_WhereOperatorOrder / Or in Where And
example : Renders (do return Stmt.select (← SelectStmt.Or (← SelectStmt.Where (← SelectStmt.From (← Verif.select [.val (.str s%"id")]) [.val (.str s%"table")]) (infixAnd (← Ident.Equal (Ident.str s%"id") (.val (.int .int 1))) (← Ident.Equal (Ident.str s%"slug") (.val (.str s%"foo"))))) (← Ident.Equal (Ident.str s%"active") (.val (.bool true)))))
    s%"SELECT \"id\" FROM \"table\" WHERE (((\"id\" = 1) AND (\"slug\" = 'foo')) OR (\"active\" = true))"
    s%"SELECT \"id\" FROM \"table\" WHERE (((\"id\" = $1) AND (\"slug\" = $2)) OR (\"active\" = $3))"
    s%"SELECT \"id\" FROM \"table\" WHERE (((\"id\" = :arg_1) AND (\"slug\" = :arg_2)) OR (\"active\" = :arg_3))"
    [(.int .int 1), (.str s%"foo"), (.bool true)] := by decide +kernel

-- TestSelect_WhereEqual / Equal
example : Renders (do return Stmt.select (← SelectStmt.Where (← SelectStmt.From (← Verif.select [.val (.str s%"id")]) [.val (.str s%"table")]) (← Ident.Equal (Ident.str s%"disabled") (.val (.bool false)))))
    s%"SELECT \"id\" FROM \"table\" WHERE (\"disabled\" = false)"
    s%"SELECT \"id\" FROM \"table\" WHERE (\"disabled\" = $1)"
    s%"SELECT \"id\" FROM \"table\" WHERE (\"disabled\" = :arg_1)"
    [(.bool false)] := by decide +kernel

-- TestSelect_WhereEqual / Not Equal
example : Renders (do return Stmt.select (← SelectStmt.Where (← SelectStmt.From (← Verif.select [.val (.str s%"id")]) [.val (.str s%"table")]) (← Ident.NotEqual (Ident.str s%"disabled") (.val (.bool false)))))
    s%"SELECT \"id\" FROM \"table\" WHERE (\"disabled\" != false)"
    s%"SELECT \"id\" FROM \"table\" WHERE (\"disabled\" != $1)"
    s%"SELECT \"id\" FROM \"table\" WHERE (\"disabled\" != :arg_1)"
    [(.bool false)] := by decide +kernel

-- TestSelect_WhereEqual / Equal Subquery
example : Renders (do return Stmt.select (← SelectStmt.Where (← SelectStmt.From (← Verif.select [.val (.str s%"id")]) [.val (.str s%"news")]) (← Ident.Equal (Ident.str s%"user_id") (.selectB (← SelectStmt.Where (← SelectStmt.From (← Verif.select [.val (.str s%"id")]) [.val (.str s%"users")]) (← Ident.Equal (Ident.str s%"public_id") (.val (.str s%"01C9TZXM678JR3GFZE1Y6494G3"))))))))
    s%"SELECT \"id\" FROM \"news\" WHERE (\"user_id\" = (SELECT \"id\" FROM \"users\" WHERE (\"public_id\" = '01C9TZXM678JR3GFZE1Y6494G3')))"
    s%"SELECT \"id\" FROM \"news\" WHERE (\"user_id\" = (SELECT \"id\" FROM \"users\" WHERE (\"public_id\" = $1)))"
    s%"SELECT \"id\" FROM \"news\" WHERE (\"user_id\" = (SELECT \"id\" FROM \"users\" WHERE (\"public_id\" = :arg_1)))"
    [(.str s%"01C9TZXM678JR3GFZE1Y6494G3")] := by decide +kernel

-- TestSelect_WhereEqual / Not Equal Subquery
example : Renders (do return Stmt.select (← SelectStmt.Where (← SelectStmt.From (← Verif.select [.val (.str s%"id")]) [.val (.str s%"news")]) (← Ident.NotEqual (Ident.str s%"user_id") (.selectB (← SelectStmt.Where (← SelectStmt.From (← Verif.select [.val (.str s%"id")]) [.val (.str s%"users")]) (← Ident.Equal (Ident.str s%"public_id") (.val (.str s%"01C9TZXM678JR3GFZE1Y6494G3"))))))))
    s%"SELECT \"id\" FROM \"news\" WHERE (\"user_id\" != (SELECT \"id\" FROM \"users\" WHERE (\"public_id\" = '01C9TZXM678JR3GFZE1Y6494G3')))"
    s%"SELECT \"id\" FROM \"news\" WHERE (\"user_id\" != (SELECT \"id\" FROM \"users\" WHERE (\"public_id\" = $1)))"
    s%"SELECT \"id\" FROM \"news\" WHERE (\"user_id\" != (SELECT \"id\" FROM \"users\" WHERE (\"public_id\" = :arg_1)))"
    [(.str s%"01C9TZXM678JR3GFZE1Y6494G3")] := by decide +kernel

-- TestSelect_WhereEqual / Call Equal
example : Renders (do return Stmt.select (← SelectStmt.Where (← SelectStmt.From (← Verif.select [.val (.str s%"id")]) [.val (.str s%"table")]) (← compareWrapped (Expr.call s%"upper" [(.ident (Ident.str s%"email"))]) Types.Equal (.val (.str s%"FOO@EXAMPLE.ORG")))))
    s%"SELECT \"id\" FROM \"table\" WHERE (upper(\"email\") = 'FOO@EXAMPLE.ORG')"
    s%"SELECT \"id\" FROM \"table\" WHERE (upper(\"email\") = $1)"
    s%"SELECT \"id\" FROM \"table\" WHERE (upper(\"email\") = :arg_1)"
    [(.str s%"FOO@EXAMPLE.ORG")] := by decide +kernel

-- TestSelect_WhereIs / Null
example : Renders (do return Stmt.select (← SelectStmt.Where (← SelectStmt.From (← Verif.select [.val (.str s%"id")]) [.val (.str s%"table")]) (← Ident.Is (Ident.str s%"disabled") (.val .nil))))
    s%"SELECT \"id\" FROM \"table\" WHERE (\"disabled\" IS NULL)"
    s%"SELECT \"id\" FROM \"table\" WHERE (\"disabled\" IS NULL)"
    s%"SELECT \"id\" FROM \"table\" WHERE (\"disabled\" IS NULL)"
    [] := by decide +kernel

-- TestSelect_WhereIs / Not true
example : Renders (do return Stmt.select (← SelectStmt.Where (← SelectStmt.From (← Verif.select [.val (.str s%"id")]) [.val (.str s%"table")]) (← Ident.IsNot (Ident.str s%"active") (.val (.bool true)))))
    s%"SELECT \"id\" FROM \"table\" WHERE (\"active\" IS NOT true)"
    s%"SELECT \"id\" FROM \"table\" WHERE (\"active\" IS NOT $1)"
    s%"SELECT \"id\" FROM \"table\" WHERE (\"active\" IS NOT :arg_1)"
    [(.bool true)] := by decide +kernel

-- TestSelect_WhereGreaterThan / Greater than 2
example : Renders (do return Stmt.select (← SelectStmt.Where (← SelectStmt.From (← Verif.select [.val (.str s%"id")]) [.val (.str s%"table")]) (← Ident.GreaterThan (Ident.str s%"count") (.val (.int .int 2)))))
    s%"SELECT \"id\" FROM \"table\" WHERE (\"count\" > 2)"
    s%"SELECT \"id\" FROM \"table\" WHERE (\"count\" > $1)"
    s%"SELECT \"id\" FROM \"table\" WHERE (\"count\" > :arg_1)"
    [(.int .int 2)] := by decide +kernel

-- TestSelect_WhereGreaterThan / Greater than or equal to 4
example : Renders (do return Stmt.select (← SelectStmt.Where (← SelectStmt.From (← Verif.select [.val (.str s%"id")]) [.val (.str s%"table")]) (← Ident.GreaterThanOrEqual (Ident.str s%"count") (.val (.int .int 4)))))
    s%"SELECT \"id\" FROM \"table\" WHERE (\"count\" >= 4)"
    s%"SELECT \"id\" FROM \"table\" WHERE (\"count\" >= $1)"
    s%"SELECT \"id\" FROM \"table\" WHERE (\"count\" >= :arg_1)"
    [(.int .int 4)] := by decide +kernel

-- TestSelect_WhereGreaterThan / Greater than or equal to raw now
example : Renders (do return Stmt.select (← SelectStmt.Where (← SelectStmt.From (← Verif.select [.val (.str s%"id")]) [.val (.str s%"table")]) (← Ident.GreaterThanOrEqual (Ident.str s%"updated_at") (.expr (.raw s%"NOW()")))))
    s%"SELECT \"id\" FROM \"table\" WHERE (\"updated_at\" >= NOW())"
    s%"SELECT \"id\" FROM \"table\" WHERE (\"updated_at\" >= NOW())"
    s%"SELECT \"id\" FROM \"table\" WHERE (\"updated_at\" >= NOW())"
    [] := by decide +kernel

-- TestSelect_WhereGreaterThan / Greater than subquery
example : Renders (do return Stmt.select (← SelectStmt.Where (← SelectStmt.From (← Verif.select [.val (.str s%"id")]) [.val (.str s%"table")]) (← Ident.GreaterThan (Ident.str s%"counter") (.selectB (← SelectStmt.Where (← SelectStmt.From (← Verif.select [.val (.str s%"counter")]) [.val (.str s%"table")]) (← Ident.Equal (Ident.str s%"id") (.val (.int .int 6598))))))))
    s%"SELECT \"id\" FROM \"table\" WHERE (\"counter\" > (SELECT \"counter\" FROM \"table\" WHERE (\"id\" = 6598)))"
    s%"SELECT \"id\" FROM \"table\" WHERE (\"counter\" > (SELECT \"counter\" FROM \"table\" WHERE (\"id\" = $1)))"
    s%"SELECT \"id\" FROM \"table\" WHERE (\"counter\" > (SELECT \"counter\" FROM \"table\" WHERE (\"id\" = :arg_1)))"
    [(.int .int 6598)] := by decide +kernel

-- TestSelect_WhereGreaterThan / Greater than or equal to subquery
example : Renders (do return Stmt.select (← SelectStmt.Where (← SelectStmt.From (← Verif.select [.val (.str s%"id")]) [.val (.str s%"table")]) (← Ident.GreaterThanOrEqual (Ident.str s%"counter") (.selectB (← SelectStmt.Where (← SelectStmt.From (← Verif.select [.val (.str s%"counter")]) [.val (.str s%"table")]) (← Ident.Equal (Ident.str s%"id") (.val (.int .int 6598))))))))
    s%"SELECT \"id\" FROM \"table\" WHERE (\"counter\" >= (SELECT \"counter\" FROM \"table\" WHERE (\"id\" = 6598)))"
    s%"SELECT \"id\" FROM \"table\" WHERE (\"counter\" >= (SELECT \"counter\" FROM \"table\" WHERE (\"id\" = $1)))"
    s%"SELECT \"id\" FROM \"table\" WHERE (\"counter\" >= (SELECT \"counter\" FROM \"table\" WHERE (\"id\" = :arg_1)))"
    [(.int .int 6598)] := by decide +kernel

-- TestSelect_WhereLessThan / Less than 3
example : Renders (do return Stmt.select (← SelectStmt.Where (← SelectStmt.From (← Verif.select [.val (.str s%"id")]) [.val (.str s%"table")]) (← Ident.LessThan (Ident.str s%"count") (.val (.int .int 3)))))
    s%"SELECT \"id\" FROM \"table\" WHERE (\"count\" < 3)"
    s%"SELECT \"id\" FROM \"table\" WHERE (\"count\" < $1)"
    s%"SELECT \"id\" FROM \"table\" WHERE (\"count\" < :arg_1)"
    [(.int .int 3)] := by decide +kernel

-- TestSelect_WhereLessThan / Less than or equal to 6
example : Renders (do return Stmt.select (← SelectStmt.Where (← SelectStmt.From (← Verif.select [.val (.str s%"id")]) [.val (.str s%"table")]) (← Ident.LessThanOrEqual (Ident.str s%"count") (.val (.int .int 6)))))
    s%"SELECT \"id\" FROM \"table\" WHERE (\"count\" <= 6)"
    s%"SELECT \"id\" FROM \"table\" WHERE (\"count\" <= $1)"
    s%"SELECT \"id\" FROM \"table\" WHERE (\"count\" <= :arg_1)"
    [(.int .int 6)] := by decide +kernel

-- TestSelect_WhereLessThan / Less than or equal to raw now
example : Renders (do return Stmt.select (← SelectStmt.Where (← SelectStmt.From (← Verif.select [.val (.str s%"id")]) [.val (.str s%"table")]) (← Ident.LessThanOrEqual (Ident.str s%"updated_at") (.expr (.raw s%"NOW()")))))
    s%"SELECT \"id\" FROM \"table\" WHERE (\"updated_at\" <= NOW())"
    s%"SELECT \"id\" FROM \"table\" WHERE (\"updated_at\" <= NOW())"
    s%"SELECT \"id\" FROM \"table\" WHERE (\"updated_at\" <= NOW())"
    [] := by decide +kernel

-- TestSelect_WhereLessThan / Less than subquery
example : Renders (do return Stmt.select (← SelectStmt.Where (← SelectStmt.From (← Verif.select [.val (.str s%"id")]) [.val (.str s%"table")]) (← Ident.LessThan (Ident.str s%"counter") (.selectB (← SelectStmt.Where (← SelectStmt.From (← Verif.select [.val (.str s%"counter")]) [.val (.str s%"table")]) (← Ident.Equal (Ident.str s%"id") (.val (.int .int 6598))))))))
    s%"SELECT \"id\" FROM \"table\" WHERE (\"counter\" < (SELECT \"counter\" FROM \"table\" WHERE (\"id\" = 6598)))"
    s%"SELECT \"id\" FROM \"table\" WHERE (\"counter\" < (SELECT \"counter\" FROM \"table\" WHERE (\"id\" = $1)))"
    s%"SELECT \"id\" FROM \"table\" WHERE (\"counter\" < (SELECT \"counter\" FROM \"table\" WHERE (\"id\" = :arg_1)))"
    [(.int .int 6598)] := by decide +kernel

-- TestSelect_WhereLessThan / Less than or equal to subquery
example : Renders (do return Stmt.select (← SelectStmt.Where (← SelectStmt.From (← Verif.select [.val (.str s%"id")]) [.val (.str s%"table")]) (← Ident.LessThanOrEqual (Ident.str s%"counter") (.selectB (← SelectStmt.Where (← SelectStmt.From (← Verif.select [.val (.str s%"counter")]) [.val (.str s%"table")]) (← Ident.Equal (Ident.str s%"id") (.val (.int .int 6598))))))))
    s%"SELECT \"id\" FROM \"table\" WHERE (\"counter\" <= (SELECT \"counter\" FROM \"table\" WHERE (\"id\" = 6598)))"
    s%"SELECT \"id\" FROM \"table\" WHERE (\"counter\" <= (SELECT \"counter\" FROM \"table\" WHERE (\"id\" = $1)))"
    s%"SELECT \"id\" FROM \"table\" WHERE (\"counter\" <= (SELECT \"counter\" FROM \"table\" WHERE (\"id\" = :arg_1)))"
    [(.int .int 6598)] := by decide +kernel

-- TestSelect_WhereLike / Like
example : Renders (do return Stmt.select (← SelectStmt.Where (← SelectStmt.From (← Verif.select [.val (.str s%"id")]) [.val (.str s%"table")]) (← Ident.Like (Ident.str s%"title") (.val (.str s%"foo%")))))
    s%"SELECT \"id\" FROM \"table\" WHERE (\"title\" LIKE 'foo%')"
    s%"SELECT \"id\" FROM \"table\" WHERE (\"title\" LIKE $1)"
    s%"SELECT \"id\" FROM \"table\" WHERE (\"title\" LIKE :arg_1)"
    [(.str s%"foo%")] := by decide +kernel

-- TestSelect_WhereLike / Not like
example : Renders (do return Stmt.select (← SelectStmt.Where (← SelectStmt.From (← Verif.select [.val (.str s%"id")]) [.val (.str s%"table")]) (← Ident.NotLike (Ident.str s%"title") (.val (.str s%"foo%")))))
    s%"SELECT \"id\" FROM \"table\" WHERE (\"title\" NOT LIKE 'foo%')"
    s%"SELECT \"id\" FROM \"table\" WHERE (\"title\" NOT LIKE $1)"
    s%"SELECT \"id\" FROM \"table\" WHERE (\"title\" NOT LIKE :arg_1)"
    [(.str s%"foo%")] := by decide +kernel

-- TestSelect_WhereLike / Ilike
example : Renders (do return Stmt.select (← SelectStmt.Where (← SelectStmt.From (← Verif.select [.val (.str s%"id")]) [.val (.str s%"table")]) (← Ident.ILike (Ident.str s%"title") (.val (.str s%"foo%")))))
    s%"SELECT \"id\" FROM \"table\" WHERE (\"title\" ILIKE 'foo%')"
    s%"SELECT \"id\" FROM \"table\" WHERE (\"title\" ILIKE $1)"
    s%"SELECT \"id\" FROM \"table\" WHERE (\"title\" ILIKE :arg_1)"
    [(.str s%"foo%")] := by decide +kernel

-- TestSelect_WhereLike / Not ilike
example : Renders (do return Stmt.select (← SelectStmt.Where (← SelectStmt.From (← Verif.select [.val (.str s%"id")]) [.val (.str s%"table")]) (← Ident.NotILike (Ident.str s%"title") (.val (.str s%"foo%")))))
    s%"SELECT \"id\" FROM \"table\" WHERE (\"title\" NOT ILIKE 'foo%')"
    s%"SELECT \"id\" FROM \"table\" WHERE (\"title\" NOT ILIKE $1)"
    s%"SELECT \"id\" FROM \"table\" WHERE (\"title\" NOT ILIKE :arg_1)"
    [(.str s%"foo%")] := by decide +kernel

-- TestSelect_WhereBetween / 10 and 20
example : Renders (do return Stmt.select (← SelectStmt.Where (← SelectStmt.From (← Verif.select [.val (.str s%"id")]) [.val (.str s%"table")]) (← Ident.Between (Ident.str s%"count") (.val (.int .int 10)) (.val (.int .int 20)))))
    s%"SELECT \"id\" FROM \"table\" WHERE (\"count\" BETWEEN 10 AND 20)"
    s%"SELECT \"id\" FROM \"table\" WHERE (\"count\" BETWEEN $1 AND $2)"
    s%"SELECT \"id\" FROM \"table\" WHERE (\"count\" BETWEEN :arg_1 AND :arg_2)"
    [(.int .int 10), (.int .int 20)] := by decide +kernel

-- TestSelect_WhereBetween / 50 and 70
example : Renders (do return Stmt.select (← SelectStmt.Where (← SelectStmt.From (← Verif.select [.val (.str s%"id")]) [.val (.str s%"table")]) (← Ident.NotBetween (Ident.str s%"count") (.val (.int .int 50)) (.val (.int .int 70)))))
    s%"SELECT \"id\" FROM \"table\" WHERE (\"count\" NOT BETWEEN 50 AND 70)"
    s%"SELECT \"id\" FROM \"table\" WHERE (\"count\" NOT BETWEEN $1 AND $2)"
    s%"SELECT \"id\" FROM \"table\" WHERE (\"count\" NOT BETWEEN :arg_1 AND :arg_2)"
    [(.int .int 50), (.int .int 70)] := by decide +kernel

-- TestSelect_WhereIsDistinctFrom / IS DISTINCT FROM
example : Renders (do return Stmt.select (← SelectStmt.Where (← SelectStmt.From (← Verif.select [.val (.str s%"id")]) [.val (.str s%"table")]) (← Ident.IsDistinctFrom (Ident.str s%"col") (.val (.int .int 10)))))
    s%"SELECT \"id\" FROM \"table\" WHERE (\"col\" IS DISTINCT FROM 10)"
    s%"SELECT \"id\" FROM \"table\" WHERE (\"col\" IS DISTINCT FROM $1)"
    s%"SELECT \"id\" FROM \"table\" WHERE (\"col\" IS DISTINCT FROM :arg_1)"
    [(.int .int 10)] := by decide +kernel

-- TestSelect_WhereIsDistinctFrom / IS NOT DISTINCT FROM
example : Renders (do return Stmt.select (← SelectStmt.Where (← SelectStmt.From (← Verif.select [.val (.str s%"id")]) [.val (.str s%"table")]) (← Ident.IsNotDistinctFrom (Ident.str s%"col") (.val (.int .int 10)))))
    s%"SELECT \"id\" FROM \"table\" WHERE (\"col\" IS NOT DISTINCT FROM 10)"
    s%"SELECT \"id\" FROM \"table\" WHERE (\"col\" IS NOT DISTINCT FROM $1)"
    s%"SELECT \"id\" FROM \"table\" WHERE (\"col\" IS NOT DISTINCT FROM :arg_1)"
    [(.int .int 10)] := by decide +kernel

-- TestSelect_WhereIn / In integers
example : Renders (do return Stmt.select (← SelectStmt.Where (← SelectStmt.From (← Verif.select [.val (.str s%"id")]) [.val (.str s%"table")]) (← Ident.In (Ident.str s%"id") [.val (.slice (.int .int64) [(.int .int64 1), (.int .int64 2), (.int .int64 3)])])))
    s%"SELECT \"id\" FROM \"table\" WHERE (\"id\" IN (1, 2, 3))"
    s%"SELECT \"id\" FROM \"table\" WHERE (\"id\" IN ($1, $2, $3))"
    s%"SELECT \"id\" FROM \"table\" WHERE (\"id\" IN (:arg_1, :arg_2, :arg_3))"
    [(.int .int64 1), (.int .int64 2), (.int .int64 3)] := by decide +kernel

-- TestSelect_WhereIn / In integers
example : Renders (do return Stmt.select (← SelectStmt.Where (← SelectStmt.From (← Verif.select [.val (.str s%"id")]) [.val (.str s%"table")]) (← Ident.In (Ident.str s%"id") [.val (.int .int64 1), .val (.int .int64 2), .val (.int .int64 3)])))
    s%"SELECT \"id\" FROM \"table\" WHERE (\"id\" IN (1, 2, 3))"
    s%"SELECT \"id\" FROM \"table\" WHERE (\"id\" IN ($1, $2, $3))"
    s%"SELECT \"id\" FROM \"table\" WHERE (\"id\" IN (:arg_1, :arg_2, :arg_3))"
    [(.int .int64 1), (.int .int64 2), (.int .int64 3)] := by decide +kernel

-- TestSelect_WhereIn / Not in integers
example : Renders (do return Stmt.select (← SelectStmt.Where (← SelectStmt.From (← Verif.select [.val (.str s%"id")]) [.val (.str s%"table")]) (← Ident.NotIn (Ident.str s%"id") [.val (.slice (.int .int) [(.int .int 1), (.int .int 2), (.int .int 3)])])))
    s%"SELECT \"id\" FROM \"table\" WHERE (\"id\" NOT IN (1, 2, 3))"
    s%"SELECT \"id\" FROM \"table\" WHERE (\"id\" NOT IN ($1, $2, $3))"
    s%"SELECT \"id\" FROM \"table\" WHERE (\"id\" NOT IN (:arg_1, :arg_2, :arg_3))"
    [(.int .int 1), (.int .int 2), (.int .int 3)] := by decide +kernel

-- TestSelect_WhereIn / Not in integers
example : Renders (do return Stmt.select (← SelectStmt.Where (← SelectStmt.From (← Verif.select [.val (.str s%"id")]) [.val (.str s%"table")]) (← Ident.NotIn (Ident.str s%"id") [.val (.int .int 1), .val (.int .int 2), .val (.int .int 3)])))
    s%"SELECT \"id\" FROM \"table\" WHERE (\"id\" NOT IN (1, 2, 3))"
    s%"SELECT \"id\" FROM \"table\" WHERE (\"id\" NOT IN ($1, $2, $3))"
    s%"SELECT \"id\" FROM \"table\" WHERE (\"id\" NOT IN (:arg_1, :arg_2, :arg_3))"
    [(.int .int 1), (.int .int 2), (.int .int 3)] := by decide +kernel

-- TestSelect_WhereIn / In strings
example : Renders (do return Stmt.select (← SelectStmt.Where (← SelectStmt.From (← Verif.select [.val (.str s%"id")]) [.val (.str s%"table")]) (← Ident.In (Ident.str s%"status") [.val (.slice .string [(.str s%"read"), (.str s%"unread")])])))
    s%"SELECT \"id\" FROM \"table\" WHERE (\"status\" IN ('read', 'unread'))"
    s%"SELECT \"id\" FROM \"table\" WHERE (\"status\" IN ($1, $2))"
    s%"SELECT \"id\" FROM \"table\" WHERE (\"status\" IN (:arg_1, :arg_2))"
    [(.str s%"read"), (.str s%"unread")] := by decide +kernel

-- TestSelect_WhereIn / In strings
example : Renders (do return Stmt.select (← SelectStmt.Where (← SelectStmt.From (← Verif.select [.val (.str s%"id")]) [.val (.str s%"table")]) (← Ident.In (Ident.str s%"status") [.val (.str s%"read"), .val (.str s%"unread")])))
    s%"SELECT \"id\" FROM \"table\" WHERE (\"status\" IN ('read', 'unread'))"
    s%"SELECT \"id\" FROM \"table\" WHERE (\"status\" IN ($1, $2))"
    s%"SELECT \"id\" FROM \"table\" WHERE (\"status\" IN (:arg_1, :arg_2))"
    [(.str s%"read"), (.str s%"unread")] := by decide +kernel

-- TestSelect_WhereIn / Not in strings
example : Renders (do return Stmt.select (← SelectStmt.Where (← SelectStmt.From (← Verif.select [.val (.str s%"id")]) [.val (.str s%"table")]) (← Ident.NotIn (Ident.str s%"status") [.val (.slice .string [(.str s%"read"), (.str s%"unread")])])))
    s%"SELECT \"id\" FROM \"table\" WHERE (\"status\" NOT IN ('read', 'unread'))"
    s%"SELECT \"id\" FROM \"table\" WHERE (\"status\" NOT IN ($1, $2))"
    s%"SELECT \"id\" FROM \"table\" WHERE (\"status\" NOT IN (:arg_1, :arg_2))"
    [(.str s%"read"), (.str s%"unread")] := by decide +kernel

-- TestSelect_WhereIn / Not in strings
example : Renders (do return Stmt.select (← SelectStmt.Where (← SelectStmt.From (← Verif.select [.val (.str s%"id")]) [.val (.str s%"table")]) (← Ident.NotIn (Ident.str s%"status") [.val (.str s%"read"), .val (.str s%"unread")])))
    s%"SELECT \"id\" FROM \"table\" WHERE (\"status\" NOT IN ('read', 'unread'))"
    s%"SELECT \"id\" FROM \"table\" WHERE (\"status\" NOT IN ($1, $2))"
    s%"SELECT \"id\" FROM \"table\" WHERE (\"status\" NOT IN (:arg_1, :arg_2))"
    [(.str s%"read"), (.str s%"unread")] := by decide +kernel

-- TestSelect_WhereIn / In single string
example : Renders (do return Stmt.select (← SelectStmt.Where (← SelectStmt.From (← Verif.select [.val (.str s%"id")]) [.val (.str s%"table")]) (← Ident.In (Ident.str s%"status") [.val (.str s%"read")])))
    s%"SELECT \"id\" FROM \"table\" WHERE (\"status\" IN ('read'))"
    s%"SELECT \"id\" FROM \"table\" WHERE (\"status\" IN ($1))"
    s%"SELECT \"id\" FROM \"table\" WHERE (\"status\" IN (:arg_1))"
    [(.str s%"read")] := by decide +kernel

-- TestSelect_WhereIn / In single string
example : Renders (do return Stmt.select (← SelectStmt.Where (← SelectStmt.From (← Verif.select [.val (.str s%"id")]) [.val (.str s%"table")]) (← Ident.In (Ident.str s%"status") [.val (.slice .string [(.str s%"read")])])))
    s%"SELECT \"id\" FROM \"table\" WHERE (\"status\" IN ('read'))"
    s%"SELECT \"id\" FROM \"table\" WHERE (\"status\" IN ($1))"
    s%"SELECT \"id\" FROM \"table\" WHERE (\"status\" IN (:arg_1))"
    [(.str s%"read")] := by decide +kernel

-- TestSelect_WhereIn / Not in single string
example : Renders (do return Stmt.select (← SelectStmt.Where (← SelectStmt.From (← Verif.select [.val (.str s%"id")]) [.val (.str s%"table")]) (← Ident.NotIn (Ident.str s%"status") [.val (.str s%"read")])))
    s%"SELECT \"id\" FROM \"table\" WHERE (\"status\" NOT IN ('read'))"
    s%"SELECT \"id\" FROM \"table\" WHERE (\"status\" NOT IN ($1))"
    s%"SELECT \"id\" FROM \"table\" WHERE (\"status\" NOT IN (:arg_1))"
    [(.str s%"read")] := by decide +kernel

-- TestSelect_WhereIn / Not in single string
example : Renders (do return Stmt.select (← SelectStmt.Where (← SelectStmt.From (← Verif.select [.val (.str s%"id")]) [.val (.str s%"table")]) (← Ident.NotIn (Ident.str s%"status") [.val (.slice .string [(.str s%"read")])])))
    s%"SELECT \"id\" FROM \"table\" WHERE (\"status\" NOT IN ('read'))"
    s%"SELECT \"id\" FROM \"table\" WHERE (\"status\" NOT IN ($1))"
    s%"SELECT \"id\" FROM \"table\" WHERE (\"status\" NOT IN (:arg_1))"
    [(.str s%"read")] := by decide +kernel

-- TestSelect_WhereIn / In Raw
example : Renders (do return Stmt.select (← SelectStmt.Where (← SelectStmt.From (← Verif.select [.val (.str s%"name")]) [.val (.str s%"users")]) (← Ident.In (Ident.str s%"id") [.expr (.raw s%"?")])))
    s%"SELECT \"name\" FROM \"users\" WHERE (\"id\" IN (?))"
    s%"SELECT \"name\" FROM \"users\" WHERE (\"id\" IN (?))"
    s%"SELECT \"name\" FROM \"users\" WHERE (\"id\" IN (?))"
    [] := by decide +kernel

-- TestSelect_WhereIn / In subquery
example : Renders (do return Stmt.select (← SelectStmt.Where (← SelectStmt.From (← Verif.select [.val (.str s%"id")]) [.val (.str s%"table")]) (← Ident.In (Ident.str s%"id") [.selectB (← SelectStmt.Where (← SelectStmt.From (← Verif.select [.val (.str s%"id")]) [.val (.str s%"table")]) (← Ident.Equal (Ident.str s%"id") (.val (.int .int 1))))])))
    s%"SELECT \"id\" FROM \"table\" WHERE (\"id\" IN (SELECT \"id\" FROM \"table\" WHERE (\"id\" = 1)))"
    s%"SELECT \"id\" FROM \"table\" WHERE (\"id\" IN (SELECT \"id\" FROM \"table\" WHERE (\"id\" = $1)))"
    s%"SELECT \"id\" FROM \"table\" WHERE (\"id\" IN (SELECT \"id\" FROM \"table\" WHERE (\"id\" = :arg_1)))"
    [(.int .int 1)] := by decide +kernel

-- TestSelect_WhereIn / Not in subquery
example : Renders (do return Stmt.select (← SelectStmt.Where (← SelectStmt.From (← Verif.select [.val (.str s%"id")]) [.val (.str s%"table")]) (← Ident.NotIn (Ident.str s%"id") [.selectB (← SelectStmt.Where (← SelectStmt.From (← Verif.select [.val (.str s%"id")]) [.val (.str s%"table")]) (← Ident.Equal (Ident.str s%"id") (.val (.int .int 1))))])))
    s%"SELECT \"id\" FROM \"table\" WHERE (\"id\" NOT IN (SELECT \"id\" FROM \"table\" WHERE (\"id\" = 1)))"
    s%"SELECT \"id\" FROM \"table\" WHERE (\"id\" NOT IN (SELECT \"id\" FROM \"table\" WHERE (\"id\" = $1)))"
    s%"SELECT \"id\" FROM \"table\" WHERE (\"id\" NOT IN (SELECT \"id\" FROM \"table\" WHERE (\"id\" = :arg_1)))"
    [(.int .int 1)] := by decide +kernel

-- TestSelect_WhereIn / In empty slice
example : Renders (do return Stmt.select (← SelectStmt.Where (← SelectStmt.From (← Verif.select [.val (.str s%"id")]) [.val (.str s%"table")]) (← Ident.In (Ident.str s%"id") [.val (.slice (.int .int) [])])))
    s%"SELECT \"id\" FROM \"table\" WHERE (\"id\" IN ())"
    s%"SELECT \"id\" FROM \"table\" WHERE (\"id\" IN ())"
    s%"SELECT \"id\" FROM \"table\" WHERE (\"id\" IN ())"
    [] := by decide +kernel

-- TestSelect_WhereIn / In nil slice
example : Renders (do return Stmt.select (← SelectStmt.Where (← SelectStmt.From (← Verif.select [.val (.str s%"id")]) [.val (.str s%"table")]) (← Ident.In (Ident.str s%"id") [.val .nil])))
    s%"SELECT \"id\" FROM \"table\" WHERE (\"id\" IN ())"
    s%"SELECT \"id\" FROM \"table\" WHERE (\"id\" IN ())"
    s%"SELECT \"id\" FROM \"table\" WHERE (\"id\" IN ())"
    [] := by decide +kernel

-- TestSelect_WhereIn / Call In
example : Renders (do return Stmt.select (← SelectStmt.Where (← SelectStmt.From (← Verif.select [.val (.str s%"id")]) [.val (.str s%"table")]) (← callIn s%"upper" [(.ident (Ident.str s%"email"))] [.val (.slice .string [(.str s%"FOO@EXAMPLE.ORG"), (.str s%"BAR@EXAMPLE.ORG")])])))
    s%"SELECT \"id\" FROM \"table\" WHERE (upper(\"email\") IN ('FOO@EXAMPLE.ORG', 'BAR@EXAMPLE.ORG'))"
    s%"SELECT \"id\" FROM \"table\" WHERE (upper(\"email\") IN ($1, $2))"
    s%"SELECT \"id\" FROM \"table\" WHERE (upper(\"email\") IN (:arg_1, :arg_2))"
    [(.str s%"FOO@EXAMPLE.ORG"), (.str s%"BAR@EXAMPLE.ORG")] := by decide +kernel

-- TestSelect_Exists / Where clause
example : Renders (do return Stmt.select (← SelectStmt.And (← SelectStmt.Where (← SelectStmt.From (← Verif.select [.val (.str s%"id")]) [.val (.str s%"users")]) (← Ident.IsNull (Ident.str s%"deleted_at") true)) (← newExists (.selectB (← SelectStmt.Where (← SelectStmt.From (← Verif.select [.expr (.raw s%"1")]) [.val (.str s%"news")]) (← Ident.GreaterThan (Ident.str s%"news.created_at") (.val (.int .int 2))))))))
    s%"SELECT \"id\" FROM \"users\" WHERE ((\"deleted_at\" IS NULL) AND (EXISTS (SELECT 1 FROM \"news\" WHERE (\"news\".\"created_at\" > 2))))"
    s%"SELECT \"id\" FROM \"users\" WHERE ((\"deleted_at\" IS NULL) AND (EXISTS (SELECT 1 FROM \"news\" WHERE (\"news\".\"created_at\" > $1))))"
    s%"SELECT \"id\" FROM \"users\" WHERE ((\"deleted_at\" IS NULL) AND (EXISTS (SELECT 1 FROM \"news\" WHERE (\"news\".\"created_at\" > :arg_1))))"
    [(.int .int 2)] := by decide +kernel

-- TestSelect_NotExists / Where clause
example : Renders (do return Stmt.select (← SelectStmt.And (← SelectStmt.Where (← SelectStmt.From (← Verif.select [.val (.str s%"id")]) [.val (.str s%"users")]) (← Ident.IsNull (Ident.str s%"deleted_at") true)) (← newNotExists (.selectB (← SelectStmt.Where (← SelectStmt.From (← Verif.select [.expr (.raw s%"1")]) [.val (.str s%"news")]) (← Ident.GreaterThan (Ident.str s%"news.created_at") (.val (.int .int 2))))))))
    s%"SELECT \"id\" FROM \"users\" WHERE ((\"deleted_at\" IS NULL) AND (NOT EXISTS (SELECT 1 FROM \"news\" WHERE (\"news\".\"created_at\" > 2))))"
    s%"SELECT \"id\" FROM \"users\" WHERE ((\"deleted_at\" IS NULL) AND (NOT EXISTS (SELECT 1 FROM \"news\" WHERE (\"news\".\"created_at\" > $1))))"
    s%"SELECT \"id\" FROM \"users\" WHERE ((\"deleted_at\" IS NULL) AND (NOT EXISTS (SELECT 1 FROM \"news\" WHERE (\"news\".\"created_at\" > :arg_1))))"
    [(.int .int 2)] := by decide +kernel

-- TestSelect_GroupBy / One column
example : Renders (do return Stmt.select (← SelectStmt.GroupBy (← SelectStmt.Where (← SelectStmt.From (← Verif.select [.val (.str s%"name"), .expr (.raw s%"COUNT(*)")]) [.val (.str s%"user")]) (← Ident.IsNull (Ident.str s%"disabled") false)) [.val (.str s%"name")]))
    s%"SELECT \"name\", COUNT(*) FROM \"user\" WHERE (\"disabled\" IS NOT NULL) GROUP BY \"name\""
    s%"SELECT \"name\", COUNT(*) FROM \"user\" WHERE (\"disabled\" IS NOT NULL) GROUP BY \"name\""
    s%"SELECT \"name\", COUNT(*) FROM \"user\" WHERE (\"disabled\" IS NOT NULL) GROUP BY \"name\""
    [] := by decide +kernel

-- TestSelect_GroupBy / One column
example : Renders (do return Stmt.select (← SelectStmt.GroupBy (← SelectStmt.Where (← SelectStmt.From (← Verif.select [.val (.str s%"name"), .expr (.raw s%"COUNT(*)")]) [.val (.str s%"user")]) (← Ident.IsNull (Ident.str s%"disabled") false)) [.selExpr (.column ({ name := s%"name" } : Column))]))
    s%"SELECT \"name\", COUNT(*) FROM \"user\" WHERE (\"disabled\" IS NOT NULL) GROUP BY \"name\""
    s%"SELECT \"name\", COUNT(*) FROM \"user\" WHERE (\"disabled\" IS NOT NULL) GROUP BY \"name\""
    s%"SELECT \"name\", COUNT(*) FROM \"user\" WHERE (\"disabled\" IS NOT NULL) GROUP BY \"name\""
    [] := by decide +kernel

-- TestSelect_GroupBy / Two columns
example : Renders (do return Stmt.select (← SelectStmt.GroupBy (← SelectStmt.Where (← SelectStmt.From (← Verif.select [.val (.str s%"name"), .val (.str s%"locale"), .expr (.raw s%"COUNT(*)")]) [.val (.str s%"user")]) (← Ident.IsNull (Ident.str s%"disabled") false)) [.val (.str s%"name"), .val (.str s%"locale")]))
    s%"SELECT \"name\", \"locale\", COUNT(*) FROM \"user\" WHERE (\"disabled\" IS NOT NULL) GROUP BY \"name\", \"locale\""
    s%"SELECT \"name\", \"locale\", COUNT(*) FROM \"user\" WHERE (\"disabled\" IS NOT NULL) GROUP BY \"name\", \"locale\""
    s%"SELECT \"name\", \"locale\", COUNT(*) FROM \"user\" WHERE (\"disabled\" IS NOT NULL) GROUP BY \"name\", \"locale\""
    [] := by decide +kernel

-- TestSelect_GroupBy / Two columns
example : Renders (do return Stmt.select (← SelectStmt.GroupBy (← SelectStmt.Where (← SelectStmt.From (← Verif.select [.val (.str s%"name"), .val (.str s%"locale"), .expr (.raw s%"COUNT(*)")]) [.val (.str s%"user")]) (← Ident.IsNull (Ident.str s%"disabled") false)) [.selExpr (.column ({ name := s%"name" } : Column)), .selExpr (.column ({ name := s%"locale" } : Column))]))
    s%"SELECT \"name\", \"locale\", COUNT(*) FROM \"user\" WHERE (\"disabled\" IS NOT NULL) GROUP BY \"name\", \"locale\""
    s%"SELECT \"name\", \"locale\", COUNT(*) FROM \"user\" WHERE (\"disabled\" IS NOT NULL) GROUP BY \"name\", \"locale\""
    s%"SELECT \"name\", \"locale\", COUNT(*) FROM \"user\" WHERE (\"disabled\" IS NOT NULL) GROUP BY \"name\", \"locale\""
    [] := by decide +kernel

-- TestSelect_GroupBy / Three columns
example : Renders (do return Stmt.select (← SelectStmt.GroupBy (← SelectStmt.Where (← SelectStmt.From (← Verif.select [.val (.str s%"name"), .val (.str s%"locale"), .val (.str s%"country"), .expr (.raw s%"COUNT(*)")]) [.val (.str s%"user")]) (← Ident.IsNull (Ident.str s%"disabled") false)) [.val (.str s%"name"), .val (.str s%"locale"), .val (.str s%"country")]))
    s%"SELECT \"name\", \"locale\", \"country\", COUNT(*) FROM \"user\" WHERE (\"disabled\" IS NOT NULL) GROUP BY \"name\", \"locale\", \"country\""
    s%"SELECT \"name\", \"locale\", \"country\", COUNT(*) FROM \"user\" WHERE (\"disabled\" IS NOT NULL) GROUP BY \"name\", \"locale\", \"country\""
    s%"SELECT \"name\", \"locale\", \"country\", COUNT(*) FROM \"user\" WHERE (\"disabled\" IS NOT NULL) GROUP BY \"name\", \"locale\", \"country\""
    [] := by decide +kernel

-- TestSelect_GroupBy / Three columns
example : Renders (do return Stmt.select (← SelectStmt.GroupBy (← SelectStmt.Where (← SelectStmt.From (← Verif.select [.val (.str s%"name"), .val (.str s%"locale"), .val (.str s%"country"), .expr (.raw s%"COUNT(*)")]) [.val (.str s%"user")]) (← Ident.IsNull (Ident.str s%"disabled") false)) [.selExpr (.column ({ name := s%"name" } : Column)), .selExpr (.column ({ name := s%"locale" } : Column)), .selExpr (.column ({ name := s%"country" } : Column))]))
    s%"SELECT \"name\", \"locale\", \"country\", COUNT(*) FROM \"user\" WHERE (\"disabled\" IS NOT NULL) GROUP BY \"name\", \"locale\", \"country\""
    s%"SELECT \"name\", \"locale\", \"country\", COUNT(*) FROM \"user\" WHERE (\"disabled\" IS NOT NULL) GROUP BY \"name\", \"locale\", \"country\""
    s%"SELECT \"name\", \"locale\", \"country\", COUNT(*) FROM \"user\" WHERE (\"disabled\" IS NOT NULL) GROUP BY \"name\", \"locale\", \"country\""
    [] := by decide +kernel

-- TestSelect_Having / One condition
example : Renders (do return Stmt.select (← SelectStmt.Having (← SelectStmt.GroupBy (← SelectStmt.Where (← SelectStmt.From (← Verif.select [.val (.str s%"name"), .expr (.raw s%"COUNT(*)")]) [.val (.str s%"user")]) (← Ident.IsNull (Ident.str s%"disabled") false)) [.val (.str s%"name")]) (← compareWrapped (Expr.call s%"COUNT" [(.raw s%"*")]) Types.GreaterThan (.val (.int .int 10)))))
    s%"SELECT \"name\", COUNT(*) FROM \"user\" WHERE (\"disabled\" IS NOT NULL) GROUP BY \"name\" HAVING (COUNT(*) > 10)"
    s%"SELECT \"name\", COUNT(*) FROM \"user\" WHERE (\"disabled\" IS NOT NULL) GROUP BY \"name\" HAVING (COUNT(*) > $1)"
    s%"SELECT \"name\", COUNT(*) FROM \"user\" WHERE (\"disabled\" IS NOT NULL) GROUP BY \"name\" HAVING (COUNT(*) > :arg_1)"
    [(.int .int 10)] := by decide +kernel

-- TestSelect_Having / Two conditions
example : Renders (do return Stmt.select (← SelectStmt.Having (← SelectStmt.GroupBy (← SelectStmt.Where (← SelectStmt.From (← Verif.select [.val (.str s%"name"), .expr (.raw s%"COUNT(*)")]) [.val (.str s%"user")]) (← Ident.IsNull (Ident.str s%"disabled") false)) [.val (.str s%"name")]) (infixAnd (← compareWrapped (Expr.call s%"COUNT" [(.raw s%"*")]) Types.GreaterThan (.val (.int .int 10))) (← compareWrapped (Expr.call s%"COUNT" [(.raw s%"*")]) Types.LessThan (.val (.int .int 500))))))
    s%"SELECT \"name\", COUNT(*) FROM \"user\" WHERE (\"disabled\" IS NOT NULL) GROUP BY \"name\" HAVING ((COUNT(*) > 10) AND (COUNT(*) < 500))"
    s%"SELECT \"name\", COUNT(*) FROM \"user\" WHERE (\"disabled\" IS NOT NULL) GROUP BY \"name\" HAVING ((COUNT(*) > $1) AND (COUNT(*) < $2))"
    s%"SELECT \"name\", COUNT(*) FROM \"user\" WHERE (\"disabled\" IS NOT NULL) GROUP BY \"name\" HAVING ((COUNT(*) > :arg_1) AND (COUNT(*) < :arg_2))"
    [(.int .int 10), (.int .int 500)] := by decide +kernel

-- TestSelect_OrderBy / With order asc
example : Renders (do return Stmt.select (← SelectStmt.OrderBy (← SelectStmt.From (← Verif.select [.val (.str s%"name")]) [.val (.str s%"user")]) [(newOrder s%"id" [])]))
    s%"SELECT \"name\" FROM \"user\" ORDER BY id ASC"
    s%"SELECT \"name\" FROM \"user\" ORDER BY id ASC"
    s%"SELECT \"name\" FROM \"user\" ORDER BY id ASC"
    [] := by decide +kernel

-- TestSelect_OrderBy / With order asc
example : Renders (do return Stmt.select (← SelectStmt.OrderBy (← SelectStmt.From (← Verif.select [.val (.str s%"name")]) [.val (.str s%"user")]) [(newOrder s%"id" [Types.Asc])]))
    s%"SELECT \"name\" FROM \"user\" ORDER BY id ASC"
    s%"SELECT \"name\" FROM \"user\" ORDER BY id ASC"
    s%"SELECT \"name\" FROM \"user\" ORDER BY id ASC"
    [] := by decide +kernel

-- TestSelect_OrderBy / With order asc
example : Renders (do return Stmt.select (← SelectStmt.OrderBy (← SelectStmt.From (← Verif.select [.val (.str s%"name")]) [.val (.str s%"user")]) [(Column.asc ({ name := s%"id" } : Column))]))
    s%"SELECT \"name\" FROM \"user\" ORDER BY id ASC"
    s%"SELECT \"name\" FROM \"user\" ORDER BY id ASC"
    s%"SELECT \"name\" FROM \"user\" ORDER BY id ASC"
    [] := by decide +kernel

-- TestSelect_OrderBy / With order desc
example : Renders (do return Stmt.select (← SelectStmt.OrderBy (← SelectStmt.From (← Verif.select [.val (.str s%"name")]) [.val (.str s%"user")]) [(newOrder s%"id" [Types.Desc])]))
    s%"SELECT \"name\" FROM \"user\" ORDER BY id DESC"
    s%"SELECT \"name\" FROM \"user\" ORDER BY id DESC"
    s%"SELECT \"name\" FROM \"user\" ORDER BY id DESC"
    [] := by decide +kernel

-- TestSelect_OrderBy / With order desc
example : Renders (do return Stmt.select (← SelectStmt.OrderBy (← SelectStmt.From (← Verif.select [.val (.str s%"name")]) [.val (.str s%"user")]) [(Column.desc ({ name := s%"id" } : Column))]))
    s%"SELECT \"name\" FROM \"user\" ORDER BY id DESC"
    s%"SELECT \"name\" FROM \"user\" ORDER BY id DESC"
    s%"SELECT \"name\" FROM \"user\" ORDER BY id DESC"
    [] := by decide +kernel

-- TestSelect_OrderBy / With order desc and asc
example : Renders (do return Stmt.select (← SelectStmt.OrderBy (← SelectStmt.From (← Verif.select [.val (.str s%"name")]) [.val (.str s%"user")]) [(newOrder s%"locale" []), (newOrder s%"id" [Types.Desc])]))
    s%"SELECT \"name\" FROM \"user\" ORDER BY locale ASC, id DESC"
    s%"SELECT \"name\" FROM \"user\" ORDER BY locale ASC, id DESC"
    s%"SELECT \"name\" FROM \"user\" ORDER BY locale ASC, id DESC"
    [] := by decide +kernel

-- TestSelect_OrderBy / With order desc and asc
example : Renders (do return Stmt.select (← SelectStmt.OrderBy (← SelectStmt.OrderBy (← SelectStmt.From (← Verif.select [.val (.str s%"name")]) [.val (.str s%"user")]) [(newOrder s%"locale" [])]) [(newOrder s%"id" [Types.Desc])]))
    s%"SELECT \"name\" FROM \"user\" ORDER BY locale ASC, id DESC"
    s%"SELECT \"name\" FROM \"user\" ORDER BY locale ASC, id DESC"
    s%"SELECT \"name\" FROM \"user\" ORDER BY locale ASC, id DESC"
    [] := by decide +kernel

-- TestSelect_OrderBy / With order desc and asc
example : Renders (do return Stmt.select (← SelectStmt.OrderBy (← SelectStmt.From (← Verif.select [.val (.str s%"name")]) [.val (.str s%"user")]) [(Column.asc ({ name := s%"locale" } : Column)), (Column.desc ({ name := s%"id" } : Column))]))
    s%"SELECT \"name\" FROM \"user\" ORDER BY locale ASC, id DESC"
    s%"SELECT \"name\" FROM \"user\" ORDER BY locale ASC, id DESC"
    s%"SELECT \"name\" FROM \"user\" ORDER BY locale ASC, id DESC"
    [] := by decide +kernel

-- TestSelect_OrderBy / With order desc and asc
example : Renders (do return Stmt.select (← SelectStmt.OrderBy (← SelectStmt.OrderBy (← SelectStmt.From (← Verif.select [.val (.str s%"name")]) [.val (.str s%"user")]) [(Column.asc ({ name := s%"locale" } : Column))]) [(Column.desc ({ name := s%"id" } : Column))]))
    s%"SELECT \"name\" FROM \"user\" ORDER BY locale ASC, id DESC"
    s%"SELECT \"name\" FROM \"user\" ORDER BY locale ASC, id DESC"
    s%"SELECT \"name\" FROM \"user\" ORDER BY locale ASC, id DESC"
    [] := by decide +kernel

-- TestSelect_Limit / int 10
example : Renders (do return Stmt.select (← SelectStmt.Limit (← SelectStmt.From (← Verif.select [.val (.str s%"name")]) [.val (.str s%"user")]) (.val (.int .int 10))))
    s%"SELECT \"name\" FROM \"user\" LIMIT 10"
    s%"SELECT \"name\" FROM \"user\" LIMIT 10"
    s%"SELECT \"name\" FROM \"user\" LIMIT 10"
    [] := by decide +kernel

-- TestSelect_Limit / string 50
example : Renders (do return Stmt.select (← SelectStmt.Limit (← SelectStmt.From (← Verif.select [.val (.str s%"name")]) [.val (.str s%"user")]) (.val (.str s%"50"))))
    s%"SELECT \"name\" FROM \"user\" LIMIT 50"
    s%"SELECT \"name\" FROM \"user\" LIMIT 50"
    s%"SELECT \"name\" FROM \"user\" LIMIT 50"
    [] := by decide +kernel

-- TestSelect_Limit / uint64 700
example : Renders (do return Stmt.select (← SelectStmt.Limit (← SelectStmt.From (← Verif.select [.val (.str s%"name")]) [.val (.str s%"user")]) (.val (.uint .uint64 700))))
    s%"SELECT \"name\" FROM \"user\" LIMIT 700"
    s%"SELECT \"name\" FROM \"user\" LIMIT 700"
    s%"SELECT \"name\" FROM \"user\" LIMIT 700"
    [] := by decide +kernel

-- TestSelect_Limit / Corner case 0
example : Fails (do return Stmt.select (← SelectStmt.Limit (← SelectStmt.From (← Verif.select [.val (.str s%"name")]) [.val (.str s%"user")]) (.val (.float64 0)))) := by decide +kernel

-- TestSelect_Limit / Corner case 1
example : Fails (do return Stmt.select (← SelectStmt.Limit (← SelectStmt.From (← Verif.select [.val (.str s%"name")]) [.val (.str s%"user")]) (.val (.float32 0)))) := by decide +kernel

-- TestSelect_Limit / Corner case 2
example : Fails (do return Stmt.select (← SelectStmt.Limit (← SelectStmt.From (← Verif.select [.val (.str s%"name")]) [.val (.str s%"user")]) (.val (.int .int (-700))))) := by decide +kernel

-- TestSelect_Offset / int 10
example : Renders (do return Stmt.select (← SelectStmt.Offset (← SelectStmt.From (← Verif.select [.val (.str s%"name")]) [.val (.str s%"user")]) (.val (.int .int 10))))
    s%"SELECT \"name\" FROM \"user\" OFFSET 10"
    s%"SELECT \"name\" FROM \"user\" OFFSET 10"
    s%"SELECT \"name\" FROM \"user\" OFFSET 10"
    [] := by decide +kernel

-- TestSelect_Offset / string 50
example : Renders (do return Stmt.select (← SelectStmt.Offset (← SelectStmt.From (← Verif.select [.val (.str s%"name")]) [.val (.str s%"user")]) (.val (.str s%"50"))))
    s%"SELECT \"name\" FROM \"user\" OFFSET 50"
    s%"SELECT \"name\" FROM \"user\" OFFSET 50"
    s%"SELECT \"name\" FROM \"user\" OFFSET 50"
    [] := by decide +kernel

-- TestSelect_Offset / uint64 700
example : Renders (do return Stmt.select (← SelectStmt.Offset (← SelectStmt.From (← Verif.select [.val (.str s%"name")]) [.val (.str s%"user")]) (.val (.uint .uint64 700))))
    s%"SELECT \"name\" FROM \"user\" OFFSET 700"
    s%"SELECT \"name\" FROM \"user\" OFFSET 700"
    s%"SELECT \"name\" FROM \"user\" OFFSET 700"
    [] := by decide +kernel

-- TestSelect_Offset / Corner case 0
example : Fails (do return Stmt.select (← SelectStmt.Offset (← SelectStmt.From (← Verif.select [.val (.str s%"name")]) [.val (.str s%"user")]) (.val (.float64 0)))) := by decide +kernel

-- TestSelect_Offset / Corner case 1
example : Fails (do return Stmt.select (← SelectStmt.Offset (← SelectStmt.From (← Verif.select [.val (.str s%"name")]) [.val (.str s%"user")]) (.val (.float32 0)))) := by decide +kernel

-- TestSelect_Offset / Corner case 2
example : Fails (do return Stmt.select (← SelectStmt.Offset (← SelectStmt.From (← Verif.select [.val (.str s%"name")]) [.val (.str s%"user")]) (.val (.int .int (-700))))) := by decide +kernel

-- TestSelect_With / Count with simple with statement
example : Renders (do return Stmt.select (← SelectStmt.With (← SelectStmt.From (← Verif.select [.expr (.raw s%"AVG(COUNT)")]) [.val (.str s%"members")]) [(← newWithQuery s%"members" (.selectB (← SelectStmt.GroupBy (← SelectStmt.Where (← SelectStmt.From (← Verif.select [.expr (.raw s%"COUNT(*)")]) [.val (.str s%"table")]) (← Ident.IsNull (Ident.str s%"deleted_at") true)) [.val (.str s%"group_id")])))]))
    s%"WITH members AS (SELECT COUNT(*) FROM \"table\" WHERE (\"deleted_at\" IS NULL) GROUP BY \"group_id\") SELECT AVG(COUNT) FROM \"members\""
    s%"WITH members AS (SELECT COUNT(*) FROM \"table\" WHERE (\"deleted_at\" IS NULL) GROUP BY \"group_id\") SELECT AVG(COUNT) FROM \"members\""
    s%"WITH members AS (SELECT COUNT(*) FROM \"table\" WHERE (\"deleted_at\" IS NULL) GROUP BY \"group_id\") SELECT AVG(COUNT) FROM \"members\""
    [] := by decide +kernel

-- TestSelect_With / Sum with simple with statement
example : Renders (do return Stmt.select (← SelectStmt.Where (← SelectStmt.Where (← SelectStmt.Where (← SelectStmt.With (← SelectStmt.Join (← SelectStmt.From (← Verif.select [.expr (.raw s%"SUM(project.amount_raised - withdrawn.amount)")]) [.val (.str s%"project")]) [.val (.str s%"withdrawn"), .expr (Expr.onClause { name := s%"withdrawn.project_id" } { name := s%"project.id" }), .joinType Types.LeftJoin]) [(← newWithQuery s%"withdrawn" (.selectB (← SelectStmt.GroupBy (← SelectStmt.From (← Verif.select [.expr (.raw s%"SUM(amount) AS amount"), .val (.str s%"project_id")]) [.val (.str s%"withdrawal")]) [.val (.str s%"project_id")])))]) (← Ident.GreaterThan (Ident.str s%"project.amount_raised") (.val (.int .int 0)))) (← Ident.IsNull (Ident.str s%"project.deleted_at") true)) (← Ident.GreaterThan (Ident.str s%"project.amount_raised") (.expr (.raw s%"withdrawn.amount")))))
    s%"WITH withdrawn AS (SELECT SUM(amount) AS amount, \"project_id\" FROM \"withdrawal\" GROUP BY \"project_id\") SELECT SUM(project.amount_raised - withdrawn.amount) FROM \"project\" LEFT JOIN \"withdrawn\" ON \"withdrawn\".\"project_id\" = \"project\".\"id\" WHERE (((\"project\".\"amount_raised\" > 0) AND (\"project\".\"deleted_at\" IS NULL)) AND (\"project\".\"amount_raised\" > withdrawn.amount))"
    s%"WITH withdrawn AS (SELECT SUM(amount) AS amount, \"project_id\" FROM \"withdrawal\" GROUP BY \"project_id\") SELECT SUM(project.amount_raised - withdrawn.amount) FROM \"project\" LEFT JOIN \"withdrawn\" ON \"withdrawn\".\"project_id\" = \"project\".\"id\" WHERE (((\"project\".\"amount_raised\" > $1) AND (\"project\".\"deleted_at\" IS NULL)) AND (\"project\".\"amount_raised\" > withdrawn.amount))"
    s%"WITH withdrawn AS (SELECT SUM(amount) AS amount, \"project_id\" FROM \"withdrawal\" GROUP BY \"project_id\") SELECT SUM(project.amount_raised - withdrawn.amount) FROM \"project\" LEFT JOIN \"withdrawn\" ON \"withdrawn\".\"project_id\" = \"project\".\"id\" WHERE (((\"project\".\"amount_raised\" > :arg_1) AND (\"project\".\"deleted_at\" IS NULL)) AND (\"project\".\"amount_raised\" > withdrawn.amount))"
    [(.int .int 0)] := by decide +kernel

-- TestSelect_With / Multiple with statement
example : Renders (do return Stmt.select (← SelectStmt.Where (← SelectStmt.Where (← SelectStmt.Where (← SelectStmt.Where (← SelectStmt.Join (← SelectStmt.Join (← SelectStmt.With (← SelectStmt.With (← SelectStmt.From (← Verif.select [.expr (.raw s%"SUM(project.amount_raised - withdrawn.amount)")]) [.val (.str s%"project")]) [(← newWithQuery s%"withdrawn" (.selectB (← SelectStmt.GroupBy (← SelectStmt.From (← Verif.select [.expr (.raw s%"SUM(amount) AS amount"), .val (.str s%"project_id")]) [.val (.str s%"withdrawal")]) [.val (.str s%"project_id")])))]) [(← newWithQuery s%"contributions" (.selectB (← SelectStmt.GroupBy (← SelectStmt.From (← Verif.select [.expr (.raw s%"COUNT(*) AS count"), .val (.str s%"project_id")]) [.val (.str s%"contribution")]) [.val (.str s%"project_id")])))]) [.val (.str s%"withdrawn"), .expr (Expr.onClause { name := s%"withdrawn.project_id" } { name := s%"project.id" }), .joinType Types.LeftJoin]) [.val (.str s%"contributions"), .expr (Expr.onClause { name := s%"contributions.project_id" } { name := s%"project.id" }), .joinType Types.LeftJoin]) (← Ident.GreaterThan (Ident.str s%"project.amount_raised") (.val (.int .int 0)))) (← Ident.GreaterThan (Ident.str s%"contributions.count") (.val (.int .int 10)))) (← Ident.IsNull (Ident.str s%"project.deleted_at") true)) (← Ident.GreaterThan (Ident.str s%"project.amount_raised") (.expr (.raw s%"withdrawn.amount")))))
    s%"WITH withdrawn AS (SELECT SUM(amount) AS amount, \"project_id\" FROM \"withdrawal\" GROUP BY \"project_id\"), contributions AS (SELECT COUNT(*) AS count, \"project_id\" FROM \"contribution\" GROUP BY \"project_id\") SELECT SUM(project.amount_raised - withdrawn.amount) FROM \"project\" LEFT JOIN \"withdrawn\" ON \"withdrawn\".\"project_id\" = \"project\".\"id\" LEFT JOIN \"contributions\" ON \"contributions\".\"project_id\" = \"project\".\"id\" WHERE ((((\"project\".\"amount_raised\" > 0) AND (\"contributions\".\"count\" > 10)) AND (\"project\".\"deleted_at\" IS NULL)) AND (\"project\".\"amount_raised\" > withdrawn.amount))"
    s%"WITH withdrawn AS (SELECT SUM(amount) AS amount, \"project_id\" FROM \"withdrawal\" GROUP BY \"project_id\"), contributions AS (SELECT COUNT(*) AS count, \"project_id\" FROM \"contribution\" GROUP BY \"project_id\") SELECT SUM(project.amount_raised - withdrawn.amount) FROM \"project\" LEFT JOIN \"withdrawn\" ON \"withdrawn\".\"project_id\" = \"project\".\"id\" LEFT JOIN \"contributions\" ON \"contributions\".\"project_id\" = \"project\".\"id\" WHERE ((((\"project\".\"amount_raised\" > $1) AND (\"contributions\".\"count\" > $2)) AND (\"project\".\"deleted_at\" IS NULL)) AND (\"project\".\"amount_raised\" > withdrawn.amount))"
    s%"WITH withdrawn AS (SELECT SUM(amount) AS amount, \"project_id\" FROM \"withdrawal\" GROUP BY \"project_id\"), contributions AS (SELECT COUNT(*) AS count, \"project_id\" FROM \"contribution\" GROUP BY \"project_id\") SELECT SUM(project.amount_raised - withdrawn.amount) FROM \"project\" LEFT JOIN \"withdrawn\" ON \"withdrawn\".\"project_id\" = \"project\".\"id\" LEFT JOIN \"contributions\" ON \"contributions\".\"project_id\" = \"project\".\"id\" WHERE ((((\"project\".\"amount_raised\" > :arg_1) AND (\"contributions\".\"count\" > :arg_2)) AND (\"project\".\"deleted_at\" IS NULL)) AND (\"project\".\"amount_raised\" > withdrawn.amount))"
    [(.int .int 0), (.int .int 10)] := by decide +kernel

-- TestSelect_Extra / Prefix
example : Renders (do return Stmt.select (← SelectStmt.Prefix (← SelectStmt.From (← Verif.select [.val (.str s%"name")]) [.val (.str s%"user")]) (.val (.str s%"EXPLAIN ANALYZE"))))
    s%"EXPLAIN ANALYZE SELECT \"name\" FROM \"user\""
    s%"EXPLAIN ANALYZE SELECT \"name\" FROM \"user\""
    s%"EXPLAIN ANALYZE SELECT \"name\" FROM \"user\""
    [] := by decide +kernel

-- TestSelect_Extra / Suffix
example : Renders (do return Stmt.select (← SelectStmt.Suffix (← SelectStmt.From (← Verif.select [.val (.str s%"name")]) [.val (.str s%"user")]) (.val (.str s%"FOR UPDATE"))))
    s%"SELECT \"name\" FROM \"user\" FOR UPDATE"
    s%"SELECT \"name\" FROM \"user\" FOR UPDATE"
    s%"SELECT \"name\" FROM \"user\" FOR UPDATE"
    [] := by decide +kernel

-- TestSelect_RawValue / Prefix
example : Renders (do return Stmt.select (← SelectStmt.Where (← SelectStmt.From (← Verif.select [.val (.str s%"name")]) [.val (.str s%"user")]) (← Ident.Equal (Ident.raw s%"COALESCE(contributed_at, created_at)") (.val (.str s%"2021-09-13")))))
    s%"SELECT \"name\" FROM \"user\" WHERE (COALESCE(contributed_at, created_at) = '2021-09-13')"
    s%"SELECT \"name\" FROM \"user\" WHERE (COALESCE(contributed_at, created_at) = $1)"
    s%"SELECT \"name\" FROM \"user\" WHERE (COALESCE(contributed_at, created_at) = :arg_1)"
    [(.str s%"2021-09-13")] := by decide +kernel
end Verif.Tests
