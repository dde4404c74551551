import Verif.Tests.Harness

/-! Conformance tests: builder/{insert,update,delete,builder}_test.go, lexer/lexer_test.go, parser/join_test.go. -/

namespace Verif.Tests

attribute [local instance] Runtime.sample

-- TestInsert_Columns / With columns
example : Renders (do return Stmt.insert (← InsertStmt.Columns (← Verif.insert (.val (.str s%"table"))) [.val (.str s%"a"), .val (.str s%"b"), .val (.str s%"c")]))
    s%"INSERT INTO \"table\" (\"a\", \"b\", \"c\")"
    s%"INSERT INTO \"table\" (\"a\", \"b\", \"c\")"
    s%"INSERT INTO \"table\" (\"a\", \"b\", \"c\")"
    [] := by decide +kernel

-- TestInsert_Columns / Without columns
example : Renders (do return Stmt.insert (← Verif.insert (.val (.str s%"table"))))
    s%"INSERT INTO \"table\""
    s%"INSERT INTO \"table\""
    s%"INSERT INTO \"table\""
    [] := by decide +kernel

-- TestInsert_Comment / With columns
example : Renders (do return Stmt.insert (← InsertStmt.Comment (← InsertStmt.Columns (← Verif.insert (.val (.str s%"table"))) [.val (.str s%"a"), .val (.str s%"b"), .val (.str s%"c")]) s%"/foo"))
    s%"INSERT INTO \"table\" (\"a\", \"b\", \"c\"); -- /foo"
    s%"INSERT INTO \"table\" (\"a\", \"b\", \"c\"); -- /foo"
    s%"INSERT INTO \"table\" (\"a\", \"b\", \"c\"); -- /foo"
    [] := by decide +kernel

-- TestInsert_Comment / Without columns
example : Renders (do return Stmt.insert (← InsertStmt.Comment (← Verif.insert (.val (.str s%"table"))) s%"/foo"))
    s%"INSERT INTO \"table\"; -- /foo"
    s%"INSERT INTO \"table\"; -- /foo"
    s%"INSERT INTO \"table\"; -- /foo"
    [] := by decide +kernel

-- TestInsert_Values / With columns
example : Renders (do return Stmt.insert (← InsertStmt.Values (← InsertStmt.Columns (← Verif.insert (.val (.str s%"table"))) [.val (.str s%"a"), .val (.str s%"b"), .val (.str s%"c")]) [.val (.slice .string [(.str s%"va"), (.str s%"vb"), (.str s%"vc")])]))
    s%"INSERT INTO \"table\" (\"a\", \"b\", \"c\") VALUES ('va', 'vb', 'vc')"
    s%"INSERT INTO \"table\" (\"a\", \"b\", \"c\") VALUES ($1, $2, $3)"
    s%"INSERT INTO \"table\" (\"a\", \"b\", \"c\") VALUES (:arg_1, :arg_2, :arg_3)"
    [(.str s%"va"), (.str s%"vb"), (.str s%"vc")] := by decide +kernel

-- TestInsert_Values / With columns
example : Renders (do return Stmt.insert (← InsertStmt.Values (← InsertStmt.Columns (← Verif.insert (.val (.str s%"table"))) [.val (.str s%"a"), .val (.str s%"b"), .val (.str s%"c")]) [.val (.str s%"va"), .val (.str s%"vb"), .val (.str s%"vc")]))
    s%"INSERT INTO \"table\" (\"a\", \"b\", \"c\") VALUES ('va', 'vb', 'vc')"
    s%"INSERT INTO \"table\" (\"a\", \"b\", \"c\") VALUES ($1, $2, $3)"
    s%"INSERT INTO \"table\" (\"a\", \"b\", \"c\") VALUES (:arg_1, :arg_2, :arg_3)"
    [(.str s%"va"), (.str s%"vb"), (.str s%"vc")] := by decide +kernel

-- TestInsert_Values / Without columns
example : Renders (do return Stmt.insert (← InsertStmt.Values (← Verif.insert (.val (.str s%"table"))) [.val (.slice .string [(.str s%"va"), (.str s%"vb"), (.str s%"vc")])]))
    s%"INSERT INTO \"table\" VALUES ('va', 'vb', 'vc')"
    s%"INSERT INTO \"table\" VALUES ($1, $2, $3)"
    s%"INSERT INTO \"table\" VALUES (:arg_1, :arg_2, :arg_3)"
    [(.str s%"va"), (.str s%"vb"), (.str s%"vc")] := by decide +kernel

-- TestInsert_Values / Without columns
example : Renders (do return Stmt.insert (← InsertStmt.Values (← Verif.insert (.val (.str s%"table"))) [.val (.str s%"va"), .val (.str s%"vb"), .val (.str s%"vc")]))
    s%"INSERT INTO \"table\" VALUES ('va', 'vb', 'vc')"
    s%"INSERT INTO \"table\" VALUES ($1, $2, $3)"
    s%"INSERT INTO \"table\" VALUES (:arg_1, :arg_2, :arg_3)"
    [(.str s%"va"), (.str s%"vb"), (.str s%"vc")] := by decide +kernel

-- TestInsert_Values / With raw values
example : Renders (do return Stmt.insert (← InsertStmt.Values (← InsertStmt.Columns (← Verif.insert (.val (.str s%"table"))) [.val (.str s%"email"), .val (.str s%"enabled"), .val (.str s%"created_at")]) [.val (.str s%"tech@ulule.com"), .val (.bool true), .expr (.raw s%"NOW()")]))
    s%"INSERT INTO \"table\" (\"email\", \"enabled\", \"created_at\") VALUES ('tech@ulule.com', true, NOW())"
    s%"INSERT INTO \"table\" (\"email\", \"enabled\", \"created_at\") VALUES ($1, $2, NOW())"
    s%"INSERT INTO \"table\" (\"email\", \"enabled\", \"created_at\") VALUES (:arg_1, :arg_2, NOW())"
    [(.str s%"tech@ulule.com"), (.bool true)] := by decide +kernel

-- TestInsert_Values / With raw values
example : Renders (do return Stmt.insert (← InsertStmt.Values (← InsertStmt.Columns (← Verif.insert (.val (.str s%"table"))) [.val (.str s%"email"), .val (.str s%"enabled"), .val (.str s%"created_at")]) [.anys [.val (.str s%"tech@ulule.com"), .val (.bool true), .expr (.raw s%"NOW()")]]))
    s%"INSERT INTO \"table\" (\"email\", \"enabled\", \"created_at\") VALUES ('tech@ulule.com', true, NOW())"
    s%"INSERT INTO \"table\" (\"email\", \"enabled\", \"created_at\") VALUES ($1, $2, NOW())"
    s%"INSERT INTO \"table\" (\"email\", \"enabled\", \"created_at\") VALUES (:arg_1, :arg_2, NOW())"
    [(.str s%"tech@ulule.com"), (.bool true)] := by decide +kernel

-- TestInsert_Values / With byte slice
example : Renders (do return Stmt.insert (← InsertStmt.Set (← Verif.insert (.val (.str s%"table"))) [.pair (.val (.str s%"data")) (.val (.bytes [1, 2, 3]))]))
    s%"INSERT INTO \"table\" (\"data\") VALUES (decode('010203', 'hex'))"
    s%"INSERT INTO \"table\" (\"data\") VALUES ($1)"
    s%"INSERT INTO \"table\" (\"data\") VALUES (:arg_1)"
    [(.bytes [1, 2, 3])] := by decide +kernel

-- TestInsert_Values / With byte slice
example : Renders (do return Stmt.insert (← InsertStmt.Values (← InsertStmt.Columns (← Verif.insert (.val (.str s%"table"))) [.val (.str s%"data")]) [.val (.bytes [1, 2, 3])]))
    s%"INSERT INTO \"table\" (\"data\") VALUES (decode('010203', 'hex'))"
    s%"INSERT INTO \"table\" (\"data\") VALUES ($1)"
    s%"INSERT INTO \"table\" (\"data\") VALUES (:arg_1)"
    [(.bytes [1, 2, 3])] := by decide +kernel

-- TestInsert_Values / With byte slice
example : Renders (do return Stmt.insert (← InsertStmt.Values (← InsertStmt.Columns (← Verif.insert (.val (.str s%"table"))) [.val (.str s%"data")]) [.val (.slice .bytes [(.bytes [1, 2, 3])])]))
    s%"INSERT INTO \"table\" (\"data\") VALUES (decode('010203', 'hex'))"
    s%"INSERT INTO \"table\" (\"data\") VALUES ($1)"
    s%"INSERT INTO \"table\" (\"data\") VALUES (:arg_1)"
    [(.bytes [1, 2, 3])] := by decide +kernel

-- TestInsert_Values / With multiple values
example : Renders (do return Stmt.insert (← InsertStmt.Values (← Verif.insert (.val (.str s%"table"))) [.valss .string [[(.str s%"va"), (.str s%"vb"), (.str s%"vc")], [(.str s%"wa"), (.str s%"wb"), (.str s%"wc")]]]))
    s%"INSERT INTO \"table\" VALUES ('va', 'vb', 'vc'), ('wa', 'wb', 'wc')"
    s%"INSERT INTO \"table\" VALUES ($1, $2, $3), ($4, $5, $6)"
    s%"INSERT INTO \"table\" VALUES (:arg_1, :arg_2, :arg_3), (:arg_4, :arg_5, :arg_6)"
    [(.str s%"va"), (.str s%"vb"), (.str s%"vc"), (.str s%"wa"), (.str s%"wb"), (.str s%"wc")] := by decide +kernel

-- TestInsert_Values / With multiple values
example : Renders (do return Stmt.insert (← InsertStmt.Values (← Verif.insert (.val (.str s%"table"))) [.anyss [[.val (.str s%"va"), .val (.str s%"vb"), .val (.str s%"vc")], [.val (.str s%"wa"), .val (.str s%"wb"), .val (.str s%"wc")]]]))
    s%"INSERT INTO \"table\" VALUES ('va', 'vb', 'vc'), ('wa', 'wb', 'wc')"
    s%"INSERT INTO \"table\" VALUES ($1, $2, $3), ($4, $5, $6)"
    s%"INSERT INTO \"table\" VALUES (:arg_1, :arg_2, :arg_3), (:arg_4, :arg_5, :arg_6)"
    [(.str s%"va"), (.str s%"vb"), (.str s%"vc"), (.str s%"wa"), (.str s%"wb"), (.str s%"wc")] := by decide +kernel

-- TestInsert_OnConflict / Do nothing without target
example : Renders (do return Stmt.insert (← InsertStmt.OnConflict (← InsertStmt.Values (← InsertStmt.Columns (← Verif.insert (.val (.str s%"table"))) [.val (.str s%"email"), .val (.str s%"enabled"), .val (.str s%"created_at")]) [.val (.str s%"tech@ulule.com"), .val (.bool true), .expr (.raw s%"NOW()")]) [.conflictNothing]))
    s%"INSERT INTO \"table\" (\"email\", \"enabled\", \"created_at\") VALUES ('tech@ulule.com', true, NOW()) ON CONFLICT DO NOTHING"
    s%"INSERT INTO \"table\" (\"email\", \"enabled\", \"created_at\") VALUES ($1, $2, NOW()) ON CONFLICT DO NOTHING"
    s%"INSERT INTO \"table\" (\"email\", \"enabled\", \"created_at\") VALUES (:arg_1, :arg_2, NOW()) ON CONFLICT DO NOTHING"
    [(.str s%"tech@ulule.com"), (.bool true)] := by decide +kernel

-- TestInsert_OnConflict / Do nothing
example : Renders (do return Stmt.insert (← InsertStmt.OnConflict (← InsertStmt.Values (← InsertStmt.Columns (← Verif.insert (.val (.str s%"table"))) [.val (.str s%"email"), .val (.str s%"enabled"), .val (.str s%"created_at")]) [.val (.str s%"tech@ulule.com"), .val (.bool true), .expr (.raw s%"NOW()")]) [.val (.str s%"email"), .conflictNothing]))
    s%"INSERT INTO \"table\" (\"email\", \"enabled\", \"created_at\") VALUES ('tech@ulule.com', true, NOW()) ON CONFLICT (\"email\") DO NOTHING"
    s%"INSERT INTO \"table\" (\"email\", \"enabled\", \"created_at\") VALUES ($1, $2, NOW()) ON CONFLICT (\"email\") DO NOTHING"
    s%"INSERT INTO \"table\" (\"email\", \"enabled\", \"created_at\") VALUES (:arg_1, :arg_2, NOW()) ON CONFLICT (\"email\") DO NOTHING"
    [(.str s%"tech@ulule.com"), (.bool true)] := by decide +kernel

-- TestInsert_OnConflict / Do nothing
example : Renders (do return Stmt.insert (← InsertStmt.OnConflict (← InsertStmt.Values (← InsertStmt.Columns (← Verif.insert (.val (.str s%"table"))) [.val (.str s%"email"), .val (.str s%"enabled"), .val (.str s%"created_at")]) [.val (.str s%"tech@ulule.com"), .val (.bool true), .expr (.raw s%"NOW()")]) [.selExpr (.column ({ name := s%"email" } : Column)), .conflictNothing]))
    s%"INSERT INTO \"table\" (\"email\", \"enabled\", \"created_at\") VALUES ('tech@ulule.com', true, NOW()) ON CONFLICT (\"email\") DO NOTHING"
    s%"INSERT INTO \"table\" (\"email\", \"enabled\", \"created_at\") VALUES ($1, $2, NOW()) ON CONFLICT (\"email\") DO NOTHING"
    s%"INSERT INTO \"table\" (\"email\", \"enabled\", \"created_at\") VALUES (:arg_1, :arg_2, NOW()) ON CONFLICT (\"email\") DO NOTHING"
    [(.str s%"tech@ulule.com"), (.bool true)] := by decide +kernel

-- TestInsert_OnConflict / Do nothing with multiple targets
example : Renders (do return Stmt.insert (← InsertStmt.OnConflict (← InsertStmt.Values (← InsertStmt.Columns (← Verif.insert (.val (.str s%"table"))) [.val (.str s%"email"), .val (.str s%"enabled"), .val (.str s%"created_at")]) [.val (.str s%"tech@ulule.com"), .val (.bool true), .expr (.raw s%"NOW()")]) [.val (.str s%"email"), .selExpr (.column ({ name := s%"uuid" } : Column)), .val (.str s%"reference"), .conflictNothing]))
    s%"INSERT INTO \"table\" (\"email\", \"enabled\", \"created_at\") VALUES ('tech@ulule.com', true, NOW()) ON CONFLICT (\"email\", \"uuid\", \"reference\") DO NOTHING"
    s%"INSERT INTO \"table\" (\"email\", \"enabled\", \"created_at\") VALUES ($1, $2, NOW()) ON CONFLICT (\"email\", \"uuid\", \"reference\") DO NOTHING"
    s%"INSERT INTO \"table\" (\"email\", \"enabled\", \"created_at\") VALUES (:arg_1, :arg_2, NOW()) ON CONFLICT (\"email\", \"uuid\", \"reference\") DO NOTHING"
    [(.str s%"tech@ulule.com"), (.bool true)] := by decide +kernel

-- TestInsert_OnConflict / Do update
example : Renders (do return Stmt.insert (← InsertStmt.OnConflict (← InsertStmt.Values (← InsertStmt.Columns (← Verif.insert (.val (.str s%"table"))) [.val (.str s%"email"), .val (.str s%"enabled"), .val (.str s%"created_at")]) [.val (.str s%"tech@ulule.com"), .val (.bool true), .expr (.raw s%"NOW()")]) [.val (.str s%"email"), (← doUpdate [.pair (.val (.str s%"created_at")) (.expr (.raw s%"NOW()")), .pair (.val (.str s%"enabled")) (.val (.bool true))])]))
    s%"INSERT INTO \"table\" (\"email\", \"enabled\", \"created_at\") VALUES ('tech@ulule.com', true, NOW()) ON CONFLICT (\"email\") DO UPDATE SET \"created_at\" = NOW(), \"enabled\" = true"
    s%"INSERT INTO \"table\" (\"email\", \"enabled\", \"created_at\") VALUES ($1, $2, NOW()) ON CONFLICT (\"email\") DO UPDATE SET \"created_at\" = NOW(), \"enabled\" = $3"
    s%"INSERT INTO \"table\" (\"email\", \"enabled\", \"created_at\") VALUES (:arg_1, :arg_2, NOW()) ON CONFLICT (\"email\") DO UPDATE SET \"created_at\" = NOW(), \"enabled\" = :arg_3"
    [(.str s%"tech@ulule.com"), (.bool true), (.bool true)] := by decide +kernel

-- TestInsert_OnConflict / Do update
example : Renders (do return Stmt.insert (← InsertStmt.OnConflict (← InsertStmt.Values (← InsertStmt.Columns (← Verif.insert (.val (.str s%"table"))) [.val (.str s%"email"), .val (.str s%"enabled"), .val (.str s%"created_at")]) [.val (.str s%"tech@ulule.com"), .val (.bool true), .expr (.raw s%"NOW()")]) [.selExpr (.column ({ name := s%"email" } : Column)), (← doUpdate [.pair (.val (.str s%"created_at")) (.expr (.raw s%"NOW()")), .pair (.val (.str s%"enabled")) (.val (.bool true))])]))
    s%"INSERT INTO \"table\" (\"email\", \"enabled\", \"created_at\") VALUES ('tech@ulule.com', true, NOW()) ON CONFLICT (\"email\") DO UPDATE SET \"created_at\" = NOW(), \"enabled\" = true"
    s%"INSERT INTO \"table\" (\"email\", \"enabled\", \"created_at\") VALUES ($1, $2, NOW()) ON CONFLICT (\"email\") DO UPDATE SET \"created_at\" = NOW(), \"enabled\" = $3"
    s%"INSERT INTO \"table\" (\"email\", \"enabled\", \"created_at\") VALUES (:arg_1, :arg_2, NOW()) ON CONFLICT (\"email\") DO UPDATE SET \"created_at\" = NOW(), \"enabled\" = :arg_3"
    [(.str s%"tech@ulule.com"), (.bool true), (.bool true)] := by decide +kernel

-- TestInsert_OnConflict / Do update with two targets
example : Renders (do return Stmt.insert (← InsertStmt.OnConflict (← InsertStmt.Values (← InsertStmt.Columns (← Verif.insert (.val (.str s%"table"))) [.val (.str s%"email"), .val (.str s%"enabled"), .val (.str s%"created_at")]) [.val (.str s%"tech@ulule.com"), .val (.bool true), .expr (.raw s%"NOW()")]) [.val (.str s%"email"), .val (.str s%"uuid"), (← doUpdate [.pair (.val (.str s%"created_at")) (.expr (.raw s%"NOW()")), .pair (.val (.str s%"enabled")) (.val (.bool true))])]))
    s%"INSERT INTO \"table\" (\"email\", \"enabled\", \"created_at\") VALUES ('tech@ulule.com', true, NOW()) ON CONFLICT (\"email\", \"uuid\") DO UPDATE SET \"created_at\" = NOW(), \"enabled\" = true"
    s%"INSERT INTO \"table\" (\"email\", \"enabled\", \"created_at\") VALUES ($1, $2, NOW()) ON CONFLICT (\"email\", \"uuid\") DO UPDATE SET \"created_at\" = NOW(), \"enabled\" = $3"
    s%"INSERT INTO \"table\" (\"email\", \"enabled\", \"created_at\") VALUES (:arg_1, :arg_2, NOW()) ON CONFLICT (\"email\", \"uuid\") DO UPDATE SET \"created_at\" = NOW(), \"enabled\" = :arg_3"
    [(.str s%"tech@ulule.com"), (.bool true), (.bool true)] := by decide +kernel

-- TestInsert_OnConflict / Do update with 3 targets
example : Renders (do return Stmt.insert (← InsertStmt.OnConflict (← InsertStmt.Values (← InsertStmt.Columns (← Verif.insert (.val (.str s%"table"))) [.val (.str s%"email"), .val (.str s%"enabled"), .val (.str s%"created_at")]) [.val (.str s%"tech@ulule.com"), .val (.bool true), .expr (.raw s%"NOW()")]) [.val (.str s%"email"), .selExpr (.column ({ name := s%"uuid" } : Column)), .val (.str s%"reference"), (← doUpdate [.pair (.val (.str s%"created_at")) (.expr (.raw s%"NOW()")), .pair (.val (.str s%"enabled")) (.val (.bool true))])]))
    s%"INSERT INTO \"table\" (\"email\", \"enabled\", \"created_at\") VALUES ('tech@ulule.com', true, NOW()) ON CONFLICT (\"email\", \"uuid\", \"reference\") DO UPDATE SET \"created_at\" = NOW(), \"enabled\" = true"
    s%"INSERT INTO \"table\" (\"email\", \"enabled\", \"created_at\") VALUES ($1, $2, NOW()) ON CONFLICT (\"email\", \"uuid\", \"reference\") DO UPDATE SET \"created_at\" = NOW(), \"enabled\" = $3"
    s%"INSERT INTO \"table\" (\"email\", \"enabled\", \"created_at\") VALUES (:arg_1, :arg_2, NOW()) ON CONFLICT (\"email\", \"uuid\", \"reference\") DO UPDATE SET \"created_at\" = NOW(), \"enabled\" = :arg_3"
    [(.str s%"tech@ulule.com"), (.bool true), (.bool true)] := by decide +kernel

-- TestInsert_OnConflict / Corner case 0
example : Fails (do return Stmt.insert (← InsertStmt.OnConflict (← InsertStmt.Values (← InsertStmt.Columns (← Verif.insert (.val (.str s%"table"))) [.val (.str s%"email"), .val (.str s%"enabled"), .val (.str s%"created_at")]) [.val (.str s%"tech@ulule.com"), .val (.bool true), .expr (.raw s%"NOW()")]) [])) := by decide +kernel

-- TestInsert_OnConflict / Corner case 1
example : Fails (do return Stmt.insert (← InsertStmt.OnConflict (← InsertStmt.Values (← InsertStmt.Columns (← Verif.insert (.val (.str s%"table"))) [.val (.str s%"email"), .val (.str s%"enabled"), .val (.str s%"created_at")]) [.val (.str s%"tech@ulule.com"), .val (.bool true), .expr (.raw s%"NOW()")]) [.val (.str s%"email")])) := by decide +kernel

-- TestInsert_OnConflict / Corner case 2
example : Fails (do return Stmt.insert (← InsertStmt.OnConflict (← InsertStmt.Values (← InsertStmt.Columns (← Verif.insert (.val (.str s%"table"))) [.val (.str s%"email"), .val (.str s%"enabled"), .val (.str s%"created_at")]) [.val (.str s%"tech@ulule.com"), .val (.bool true), .expr (.raw s%"NOW()")]) [(← doUpdate [.pair (.val (.str s%"created_at")) (.expr (.raw s%"NOW()")), .pair (.val (.str s%"enabled")) (.val (.bool true))])])) := by decide +kernel

-- TestInsert_OnConflict / Corner case 3
example : Fails (do return Stmt.insert (← InsertStmt.OnConflict (← InsertStmt.Values (← InsertStmt.Columns (← Verif.insert (.val (.str s%"table"))) [.val (.str s%"email"), .val (.str s%"enabled"), .val (.str s%"created_at")]) [.val (.str s%"tech@ulule.com"), .val (.bool true), .expr (.raw s%"NOW()")]) [.val (.str s%"email"), .val (.int .int 6700)])) := by decide +kernel

-- TestInsert_OnConflict / Corner case 4
example : Fails (do return Stmt.insert (← InsertStmt.OnConflict (← InsertStmt.Values (← InsertStmt.Columns (← Verif.insert (.val (.str s%"table"))) [.val (.str s%"email"), .val (.str s%"enabled"), .val (.str s%"created_at")]) [.val (.str s%"tech@ulule.com"), .val (.bool true), .expr (.raw s%"NOW()")]) [.val (.int .int 569)])) := by decide +kernel

-- TestInsert_OnConflict / Corner case 5
example : Fails (do return Stmt.insert (← InsertStmt.OnConflict (← InsertStmt.Values (← InsertStmt.Columns (← Verif.insert (.val (.str s%"table"))) [.val (.str s%"email"), .val (.str s%"enabled"), .val (.str s%"created_at")]) [.val (.str s%"tech@ulule.com"), .val (.bool true), .expr (.raw s%"NOW()")]) [.val (.str s%"email"), .val (.str s%"uuid")])) := by decide +kernel

-- TestInsert_OnConflict / Corner case 6
example : Fails (do return Stmt.insert (← InsertStmt.OnConflict (← InsertStmt.Values (← InsertStmt.Columns (← Verif.insert (.val (.str s%"table"))) [.val (.str s%"email"), .val (.str s%"enabled"), .val (.str s%"created_at")]) [.val (.str s%"tech@ulule.com"), .val (.bool true), .expr (.raw s%"NOW()")]) [.selExpr (.column ({ name := s%"email" } : Column)), .selExpr (.column ({ name := s%"uuid" } : Column)), .selExpr (.column ({ name := s%"reference" } : Column))])) := by decide +kernel

-- TestInsert_Returning / One column
example : Renders (do return Stmt.insert (← InsertStmt.Returning (← InsertStmt.Values (← InsertStmt.Columns (← Verif.insert (.val (.str s%"table"))) [.val (.str s%"a"), .val (.str s%"b"), .val (.str s%"c")]) [.val (.slice .string [(.str s%"va"), (.str s%"vb"), (.str s%"vc")])]) [.val (.str s%"a")]))
    s%"INSERT INTO \"table\" (\"a\", \"b\", \"c\") VALUES ('va', 'vb', 'vc') RETURNING \"a\""
    s%"INSERT INTO \"table\" (\"a\", \"b\", \"c\") VALUES ($1, $2, $3) RETURNING \"a\""
    s%"INSERT INTO \"table\" (\"a\", \"b\", \"c\") VALUES (:arg_1, :arg_2, :arg_3) RETURNING \"a\""
    [(.str s%"va"), (.str s%"vb"), (.str s%"vc")] := by decide +kernel

-- TestInsert_Returning / Two columns
example : Renders (do return Stmt.insert (← InsertStmt.Returning (← InsertStmt.Values (← InsertStmt.Columns (← Verif.insert (.val (.str s%"table"))) [.val (.str s%"a"), .val (.str s%"b"), .val (.str s%"c")]) [.val (.slice .string [(.str s%"va"), (.str s%"vb"), (.str s%"vc")])]) [.val (.str s%"b"), .val (.str s%"a")]))
    s%"INSERT INTO \"table\" (\"a\", \"b\", \"c\") VALUES ('va', 'vb', 'vc') RETURNING \"b\", \"a\""
    s%"INSERT INTO \"table\" (\"a\", \"b\", \"c\") VALUES ($1, $2, $3) RETURNING \"b\", \"a\""
    s%"INSERT INTO \"table\" (\"a\", \"b\", \"c\") VALUES (:arg_1, :arg_2, :arg_3) RETURNING \"b\", \"a\""
    [(.str s%"va"), (.str s%"vb"), (.str s%"vc")] := by decide +kernel

-- TestInsert_Returning / Three columns
example : Renders (do return Stmt.insert (← InsertStmt.Returning (← InsertStmt.Values (← InsertStmt.Columns (← Verif.insert (.val (.str s%"table"))) [.val (.str s%"a"), .val (.str s%"b"), .val (.str s%"c")]) [.val (.slice .string [(.str s%"va"), (.str s%"vb"), (.str s%"vc")])]) [.val (.str s%"b"), .val (.str s%"a"), .val (.str s%"c")]))
    s%"INSERT INTO \"table\" (\"a\", \"b\", \"c\") VALUES ('va', 'vb', 'vc') RETURNING \"b\", \"a\", \"c\""
    s%"INSERT INTO \"table\" (\"a\", \"b\", \"c\") VALUES ($1, $2, $3) RETURNING \"b\", \"a\", \"c\""
    s%"INSERT INTO \"table\" (\"a\", \"b\", \"c\") VALUES (:arg_1, :arg_2, :arg_3) RETURNING \"b\", \"a\", \"c\""
    [(.str s%"va"), (.str s%"vb"), (.str s%"vc")] := by decide +kernel

-- TestInsert_Returning / With alias
example : Renders (do return Stmt.insert (← InsertStmt.Returning (← InsertStmt.Values (← InsertStmt.Columns (← Verif.insert (.val (.str s%"table"))) [.val (.str s%"a"), .val (.str s%"b"), .val (.str s%"c")]) [.val (.slice .string [(.str s%"va"), (.str s%"vb"), (.str s%"vc")])]) [.selExpr (.column ({ ({ name := s%"a" } : Column) with alias := s%"alias_a" } : Column))]))
    s%"INSERT INTO \"table\" (\"a\", \"b\", \"c\") VALUES ('va', 'vb', 'vc') RETURNING \"a\" AS \"alias_a\""
    s%"INSERT INTO \"table\" (\"a\", \"b\", \"c\") VALUES ($1, $2, $3) RETURNING \"a\" AS \"alias_a\""
    s%"INSERT INTO \"table\" (\"a\", \"b\", \"c\") VALUES (:arg_1, :arg_2, :arg_3) RETURNING \"a\" AS \"alias_a\""
    [(.str s%"va"), (.str s%"vb"), (.str s%"vc")] := by decide +kernel

-- TestInsert_Returning / With two aliases
example : Renders (do return Stmt.insert (← InsertStmt.Returning (← InsertStmt.Values (← InsertStmt.Columns (← Verif.insert (.val (.str s%"table"))) [.val (.str s%"a"), .val (.str s%"b"), .val (.str s%"c")]) [.val (.slice .string [(.str s%"va"), (.str s%"vb"), (.str s%"vc")])]) [.selExpr (.column ({ ({ name := s%"b" } : Column) with alias := s%"alias_b" } : Column)), .selExpr (.column ({ ({ name := s%"a" } : Column) with alias := s%"alias_a" } : Column))]))
    s%"INSERT INTO \"table\" (\"a\", \"b\", \"c\") VALUES ('va', 'vb', 'vc') RETURNING \"b\" AS \"alias_b\", \"a\" AS \"alias_a\""
    s%"INSERT INTO \"table\" (\"a\", \"b\", \"c\") VALUES ($1, $2, $3) RETURNING \"b\" AS \"alias_b\", \"a\" AS \"alias_a\""
    s%"INSERT INTO \"table\" (\"a\", \"b\", \"c\") VALUES (:arg_1, :arg_2, :arg_3) RETURNING \"b\" AS \"alias_b\", \"a\" AS \"alias_a\""
    [(.str s%"va"), (.str s%"vb"), (.str s%"vc")] := by decide +kernel

-- TestInsert_Returning / With three aliases
example : Renders (do return Stmt.insert (← InsertStmt.Returning (← InsertStmt.Values (← InsertStmt.Columns (← Verif.insert (.val (.str s%"table"))) [.val (.str s%"a"), .val (.str s%"b"), .val (.str s%"c")]) [.val (.slice .string [(.str s%"va"), (.str s%"vb"), (.str s%"vc")])]) [.selExpr (.column ({ ({ name := s%"a" } : Column) with alias := s%"alias_a" } : Column)), .selExpr (.column ({ ({ name := s%"b" } : Column) with alias := s%"alias_b" } : Column)), .selExpr (.column ({ ({ name := s%"c" } : Column) with alias := s%"alias_c" } : Column))]))
    s%"INSERT INTO \"table\" (\"a\", \"b\", \"c\") VALUES ('va', 'vb', 'vc') RETURNING \"a\" AS \"alias_a\", \"b\" AS \"alias_b\", \"c\" AS \"alias_c\""
    s%"INSERT INTO \"table\" (\"a\", \"b\", \"c\") VALUES ($1, $2, $3) RETURNING \"a\" AS \"alias_a\", \"b\" AS \"alias_b\", \"c\" AS \"alias_c\""
    s%"INSERT INTO \"table\" (\"a\", \"b\", \"c\") VALUES (:arg_1, :arg_2, :arg_3) RETURNING \"a\" AS \"alias_a\", \"b\" AS \"alias_b\", \"c\" AS \"alias_c\""
    [(.str s%"va"), (.str s%"vb"), (.str s%"vc")] := by decide +kernel

-- TestInsert_Valuer / pq.NullTime not null
example : Renders (do return Stmt.insert (← InsertStmt.Values (← InsertStmt.Columns (← Verif.insert (.val (.str s%"table"))) [.val (.str s%"email"), .val (.str s%"enabled"), .val (.str s%"created_at")]) [.val (.str s%"tech@ulule.com"), .val (.bool true), .val (.valuerOk 1 (.time 1511455647000000000 1))]))
    s%"INSERT INTO \"table\" (\"email\", \"enabled\", \"created_at\") VALUES ('tech@ulule.com', true, '2017-11-23 16:47:27+00')"
    s%"INSERT INTO \"table\" (\"email\", \"enabled\", \"created_at\") VALUES ($1, $2, $3)"
    s%"INSERT INTO \"table\" (\"email\", \"enabled\", \"created_at\") VALUES (:arg_1, :arg_2, :arg_3)"
    [(.str s%"tech@ulule.com"), (.bool true), (.valuerOk 1 (.time 1511455647000000000 1))] := by decide +kernel

-- TestInsert_Valuer / pq.NullTime null
example : Renders (do return Stmt.insert (← InsertStmt.Values (← InsertStmt.Columns (← Verif.insert (.val (.str s%"table"))) [.val (.str s%"email"), .val (.str s%"enabled"), .val (.str s%"created_at")]) [.val (.str s%"tech@ulule.com"), .val (.bool true), .val (.valuerOk 2 .nil)]))
    s%"INSERT INTO \"table\" (\"email\", \"enabled\", \"created_at\") VALUES ('tech@ulule.com', true, NULL)"
    s%"INSERT INTO \"table\" (\"email\", \"enabled\", \"created_at\") VALUES ($1, $2, $3)"
    s%"INSERT INTO \"table\" (\"email\", \"enabled\", \"created_at\") VALUES (:arg_1, :arg_2, :arg_3)"
    [(.str s%"tech@ulule.com"), (.bool true), (.valuerOk 2 .nil)] := by decide +kernel

-- TestInsert_Valuer / sql.NullString not null
example : Renders (do return Stmt.insert (← InsertStmt.Values (← InsertStmt.Columns (← Verif.insert (.val (.str s%"table"))) [.val (.str s%"email"), .val (.str s%"comment")]) [.val (.str s%"tech@ulule.com"), .val (.valuerOk 3 (.str s%"foobar"))]))
    s%"INSERT INTO \"table\" (\"email\", \"comment\") VALUES ('tech@ulule.com', 'foobar')"
    s%"INSERT INTO \"table\" (\"email\", \"comment\") VALUES ($1, $2)"
    s%"INSERT INTO \"table\" (\"email\", \"comment\") VALUES (:arg_1, :arg_2)"
    [(.str s%"tech@ulule.com"), (.valuerOk 3 (.str s%"foobar"))] := by decide +kernel

-- TestInsert_Valuer / sql.NullString null
example : Renders (do return Stmt.insert (← InsertStmt.Values (← InsertStmt.Columns (← Verif.insert (.val (.str s%"table"))) [.val (.str s%"email"), .val (.str s%"comment")]) [.val (.str s%"tech@ulule.com"), .val (.valuerOk 4 .nil)]))
    s%"INSERT INTO \"table\" (\"email\", \"comment\") VALUES ('tech@ulule.com', NULL)"
    s%"INSERT INTO \"table\" (\"email\", \"comment\") VALUES ($1, $2)"
    s%"INSERT INTO \"table\" (\"email\", \"comment\") VALUES (:arg_1, :arg_2)"
    [(.str s%"tech@ulule.com"), (.valuerOk 4 .nil)] := by decide +kernel

-- TestInsert_Valuer / sql.NullInt64 not null
example : Renders (do return Stmt.insert (← InsertStmt.Values (← InsertStmt.Columns (← Verif.insert (.val (.str s%"table"))) [.val (.str s%"email"), .val (.str s%"login")]) [.val (.str s%"tech@ulule.com"), .val (.valuerOk 5 (.int .int64 30))]))
    s%"INSERT INTO \"table\" (\"email\", \"login\") VALUES ('tech@ulule.com', 30)"
    s%"INSERT INTO \"table\" (\"email\", \"login\") VALUES ($1, $2)"
    s%"INSERT INTO \"table\" (\"email\", \"login\") VALUES (:arg_1, :arg_2)"
    [(.str s%"tech@ulule.com"), (.valuerOk 5 (.int .int64 30))] := by decide +kernel

-- TestInsert_Valuer / sql.NullInt64 null
example : Renders (do return Stmt.insert (← InsertStmt.Values (← InsertStmt.Columns (← Verif.insert (.val (.str s%"table"))) [.val (.str s%"email"), .val (.str s%"login")]) [.val (.str s%"tech@ulule.com"), .val (.valuerOk 6 .nil)]))
    s%"INSERT INTO \"table\" (\"email\", \"login\") VALUES ('tech@ulule.com', NULL)"
    s%"INSERT INTO \"table\" (\"email\", \"login\") VALUES ($1, $2)"
    s%"INSERT INTO \"table\" (\"email\", \"login\") VALUES (:arg_1, :arg_2)"
    [(.str s%"tech@ulule.com"), (.valuerOk 6 .nil)] := by decide +kernel

-- TestInsert_Valuer / nil valuer
example : Renders (do return Stmt.insert (← InsertStmt.Values (← InsertStmt.Columns (← Verif.insert (.val (.str s%"table"))) [.val (.str s%"email"), .val (.str s%"login")]) [.val (.str s%"tech@ulule.com"), .val (.valuerNil 0)]))
    s%"INSERT INTO \"table\" (\"email\", \"login\") VALUES ('tech@ulule.com', NULL)"
    s%"INSERT INTO \"table\" (\"email\", \"login\") VALUES ($1, $2)"
    s%"INSERT INTO \"table\" (\"email\", \"login\") VALUES (:arg_1, :arg_2)"
    [(.str s%"tech@ulule.com"), (.valuerNil 0)] := by decide +kernel

-- TestInsert_Set / Variadic
example : Renders (do return Stmt.insert (← InsertStmt.Set (← Verif.insert (.val (.str s%"table"))) [.pair (.val (.str s%"email")) (.val (.str s%"tech@ulule.com")), .pair (.val (.str s%"enabled")) (.val (.bool true)), .pair (.val (.str s%"created_at")) (.expr (.raw s%"NOW()"))]))
    s%"INSERT INTO \"table\" (\"created_at\", \"email\", \"enabled\") VALUES (NOW(), 'tech@ulule.com', true)"
    s%"INSERT INTO \"table\" (\"created_at\", \"email\", \"enabled\") VALUES (NOW(), $1, $2)"
    s%"INSERT INTO \"table\" (\"created_at\", \"email\", \"enabled\") VALUES (NOW(), :arg_1, :arg_2)"
    [(.str s%"tech@ulule.com"), (.bool true)] := by decide +kernel

-- TestInsert_Set / Variadic
example : Renders (do return Stmt.insert (← InsertStmt.Set (← Verif.insert (.val (.str s%"table"))) [.anyMap [(.val (.str s%"email"), .val (.str s%"tech@ulule.com")), (.val (.str s%"enabled"), .val (.bool true))], .anyMap [(.val (.str s%"created_at"), .expr (.raw s%"NOW()"))]]))
    s%"INSERT INTO \"table\" (\"created_at\", \"email\", \"enabled\") VALUES (NOW(), 'tech@ulule.com', true)"
    s%"INSERT INTO \"table\" (\"created_at\", \"email\", \"enabled\") VALUES (NOW(), $1, $2)"
    s%"INSERT INTO \"table\" (\"created_at\", \"email\", \"enabled\") VALUES (NOW(), :arg_1, :arg_2)"
    [(.str s%"tech@ulule.com"), (.bool true)] := by decide +kernel

-- TestInsert_Set / Variadic
example : Renders (do return Stmt.insert (← InsertStmt.Set (← Verif.insert (.val (.str s%"table"))) [.strMap 0 [(s%"email", .val (.str s%"tech@ulule.com"))], .strMap 0 [(s%"enabled", .val (.bool true)), (s%"created_at", .expr (.raw s%"NOW()"))]]))
    s%"INSERT INTO \"table\" (\"created_at\", \"email\", \"enabled\") VALUES (NOW(), 'tech@ulule.com', true)"
    s%"INSERT INTO \"table\" (\"created_at\", \"email\", \"enabled\") VALUES (NOW(), $1, $2)"
    s%"INSERT INTO \"table\" (\"created_at\", \"email\", \"enabled\") VALUES (NOW(), :arg_1, :arg_2)"
    [(.str s%"tech@ulule.com"), (.bool true)] := by decide +kernel

-- TestUpdate_Set_Undefined / panic if set clause is empty 0
example : Fails (do return Stmt.update (← Verif.update (.val (.str s%"table")))) := by decide +kernel

-- TestUpdate_Set_Undefined / panic if set clause is empty 1
example : Fails (do return Stmt.update (← UpdateStmt.Set (← Verif.update (.val (.str s%"table"))) [.val (.str s%"")])) := by decide +kernel

-- TestUpdate_Comment / Complex
example : Renders (do return Stmt.update (← UpdateStmt.Comment (← UpdateStmt.Where (← UpdateStmt.Set (← Verif.update (.val (.str s%"users"))) [.pair (.val (.str s%"username")) (.val (.str s%"novln"))]) (← Ident.Equal (Ident.str s%"username") (.val (.str s%"thoas")))) s%"/foo"))
    s%"UPDATE \"users\" SET \"username\" = 'novln' WHERE (\"username\" = 'thoas'); -- /foo"
    s%"UPDATE \"users\" SET \"username\" = $1 WHERE (\"username\" = $2); -- /foo"
    s%"UPDATE \"users\" SET \"username\" = :arg_1 WHERE (\"username\" = :arg_2); -- /foo"
    [(.str s%"novln"), (.str s%"thoas")] := by decide +kernel

-- TestUpdate_Set_Map / Set variadic
example : Renders (do return Stmt.update (← UpdateStmt.Set (← Verif.update (.val (.str s%"table"))) [.anyMap [(.val (.str s%"a"), .val (.int .int 1)), (.val (.str s%"b"), .val (.int .int 2))], .anyMap [(.val (.str s%"c"), .val (.int .int 3)), (.val (.str s%"d"), .val (.int .int 4))]]))
    s%"UPDATE \"table\" SET \"a\" = 1, \"b\" = 2, \"c\" = 3, \"d\" = 4"
    s%"UPDATE \"table\" SET \"a\" = $1, \"b\" = $2, \"c\" = $3, \"d\" = $4"
    s%"UPDATE \"table\" SET \"a\" = :arg_1, \"b\" = :arg_2, \"c\" = :arg_3, \"d\" = :arg_4"
    [(.int .int 1), (.int .int 2), (.int .int 3), (.int .int 4)] := by decide +kernel

-- TestUpdate_Set_Map / Set variadic
example : Renders (do return Stmt.update (← UpdateStmt.Set (← Verif.update (.val (.str s%"table"))) [.strMap 0 [(s%"a", .val (.int .int 1)), (s%"b", .val (.int .int 2))], .strMap 0 [(s%"c", .val (.int .int 3)), (s%"d", .val (.int .int 4))]]))
    s%"UPDATE \"table\" SET \"a\" = 1, \"b\" = 2, \"c\" = 3, \"d\" = 4"
    s%"UPDATE \"table\" SET \"a\" = $1, \"b\" = $2, \"c\" = $3, \"d\" = $4"
    s%"UPDATE \"table\" SET \"a\" = :arg_1, \"b\" = :arg_2, \"c\" = :arg_3, \"d\" = :arg_4"
    [(.int .int 1), (.int .int 2), (.int .int 3), (.int .int 4)] := by decide +kernel

-- TestUpdate_Set_Map / With column instance
example : Renders (do return Stmt.update (← UpdateStmt.Set (← Verif.update (.val (.str s%"table"))) [.anyMap [(.selExpr (.column ({ name := s%"foo" } : Column)), .val (.int .int 2)), (.val (.str s%"a"), .val (.int .int 1))]]))
    s%"UPDATE \"table\" SET \"a\" = 1, \"foo\" = 2"
    s%"UPDATE \"table\" SET \"a\" = $1, \"foo\" = $2"
    s%"UPDATE \"table\" SET \"a\" = :arg_1, \"foo\" = :arg_2"
    [(.int .int 1), (.int .int 2)] := by decide +kernel

-- TestUpdate_Set_Map / Multiple Set() calls with
example : Renders (do return Stmt.update (← UpdateStmt.Set (← UpdateStmt.Set (← UpdateStmt.Set (← UpdateStmt.Set (← Verif.update (.val (.str s%"table"))) [.anyMap [(.val (.str s%"a"), .val (.int .int 1))]]) [.anyMap [(.val (.str s%"b"), .val (.int .int 2))]]) [.anyMap [(.val (.str s%"c"), .val (.int .int 3))]]) [.anyMap [(.val (.str s%"d"), .val (.int .int 4)), (.val (.str s%"e"), .val (.int .int 5))]]))
    s%"UPDATE \"table\" SET \"a\" = 1, \"b\" = 2, \"c\" = 3, \"d\" = 4, \"e\" = 5"
    s%"UPDATE \"table\" SET \"a\" = $1, \"b\" = $2, \"c\" = $3, \"d\" = $4, \"e\" = $5"
    s%"UPDATE \"table\" SET \"a\" = :arg_1, \"b\" = :arg_2, \"c\" = :arg_3, \"d\" = :arg_4, \"e\" = :arg_5"
    [(.int .int 1), (.int .int 2), (.int .int 3), (.int .int 4), (.int .int 5)] := by decide +kernel

-- TestUpdate_Set_Map / Multiple Set() calls with
example : Renders (do return Stmt.update (← UpdateStmt.Set (← UpdateStmt.Set (← UpdateStmt.Set (← UpdateStmt.Set (← Verif.update (.val (.str s%"table"))) [.strMap 0 [(s%"a", .val (.int .int 1))]]) [.strMap 0 [(s%"b", .val (.int .int 2))]]) [.strMap 0 [(s%"c", .val (.int .int 3))]]) [.strMap 0 [(s%"d", .val (.int .int 4)), (s%"e", .val (.int .int 5))]]))
    s%"UPDATE \"table\" SET \"a\" = 1, \"b\" = 2, \"c\" = 3, \"d\" = 4, \"e\" = 5"
    s%"UPDATE \"table\" SET \"a\" = $1, \"b\" = $2, \"c\" = $3, \"d\" = $4, \"e\" = $5"
    s%"UPDATE \"table\" SET \"a\" = :arg_1, \"b\" = :arg_2, \"c\" = :arg_3, \"d\" = :arg_4, \"e\" = :arg_5"
    [(.int .int 1), (.int .int 2), (.int .int 3), (.int .int 4), (.int .int 5)] := by decide +kernel

-- TestUpdate_Set_Map / Multiple Set() calls with
example : Renders (do return Stmt.update (← UpdateStmt.Set (← UpdateStmt.Set (← UpdateStmt.Set (← UpdateStmt.Set (← Verif.update (.val (.str s%"table"))) [.anyMap [(.val (.str s%"a"), .val (.int .int 1))]]) [.strMap 0 [(s%"b", .val (.int .int 2))]]) [.anyMap [(.val (.str s%"c"), .val (.int .int 3))]]) [.strMap 0 [(s%"d", .val (.int .int 4)), (s%"e", .val (.int .int 5))]]))
    s%"UPDATE \"table\" SET \"a\" = 1, \"b\" = 2, \"c\" = 3, \"d\" = 4, \"e\" = 5"
    s%"UPDATE \"table\" SET \"a\" = $1, \"b\" = $2, \"c\" = $3, \"d\" = $4, \"e\" = $5"
    s%"UPDATE \"table\" SET \"a\" = :arg_1, \"b\" = :arg_2, \"c\" = :arg_3, \"d\" = :arg_4, \"e\" = :arg_5"
    [(.int .int 1), (.int .int 2), (.int .int 3), (.int .int 4), (.int .int 5)] := by decide +kernel

-- TestUpdate_Set_Map_Uniqueness / Simple
example : Renders (do return Stmt.update (← UpdateStmt.Set (← Verif.update (.val (.str s%"table"))) [.anyMap [(.val (.str s%"a"), .val (.int .int 1)), (.val (.str s%"b"), .val (.int .int 2))], .anyMap [(.val (.str s%"b"), .val (.int .int 2))]]))
    s%"UPDATE \"table\" SET \"a\" = 1, \"b\" = 2"
    s%"UPDATE \"table\" SET \"a\" = $1, \"b\" = $2"
    s%"UPDATE \"table\" SET \"a\" = :arg_1, \"b\" = :arg_2"
    [(.int .int 1), (.int .int 2)] := by decide +kernel

-- TestUpdate_Set_Map_Uniqueness / Simple
example : Renders (do return Stmt.update (← UpdateStmt.Set (← Verif.update (.val (.str s%"table"))) [.strMap 0 [(s%"a", .val (.int .int 1)), (s%"b", .val (.int .int 2))], .strMap 0 [(s%"b", .val (.int .int 2))]]))
    s%"UPDATE \"table\" SET \"a\" = 1, \"b\" = 2"
    s%"UPDATE \"table\" SET \"a\" = $1, \"b\" = $2"
    s%"UPDATE \"table\" SET \"a\" = :arg_1, \"b\" = :arg_2"
    [(.int .int 1), (.int .int 2)] := by decide +kernel

-- TestUpdate_Set_Map_Uniqueness / Simple
example : Renders (do return Stmt.update (← UpdateStmt.Set (← UpdateStmt.Set (← Verif.update (.val (.str s%"table"))) [.anyMap [(.val (.str s%"a"), .val (.int .int 1)), (.val (.str s%"b"), .val (.int .int 2))]]) [.anyMap [(.val (.str s%"b"), .val (.int .int 2))]]))
    s%"UPDATE \"table\" SET \"a\" = 1, \"b\" = 2"
    s%"UPDATE \"table\" SET \"a\" = $1, \"b\" = $2"
    s%"UPDATE \"table\" SET \"a\" = :arg_1, \"b\" = :arg_2"
    [(.int .int 1), (.int .int 2)] := by decide +kernel

-- TestUpdate_Set_Map_Uniqueness / Simple
example : Renders (do return Stmt.update (← UpdateStmt.Set (← UpdateStmt.Set (← Verif.update (.val (.str s%"table"))) [.strMap 0 [(s%"a", .val (.int .int 1)), (s%"b", .val (.int .int 2))]]) [.strMap 0 [(s%"b", .val (.int .int 2))]]))
    s%"UPDATE \"table\" SET \"a\" = 1, \"b\" = 2"
    s%"UPDATE \"table\" SET \"a\" = $1, \"b\" = $2"
    s%"UPDATE \"table\" SET \"a\" = :arg_1, \"b\" = :arg_2"
    [(.int .int 1), (.int .int 2)] := by decide +kernel

-- TestUpdate_Set_Map_Uniqueness / Simple
example : Renders (do return Stmt.update (← UpdateStmt.Set (← UpdateStmt.Set (← Verif.update (.val (.str s%"table"))) [.anyMap [(.val (.str s%"a"), .val (.int .int 1)), (.val (.str s%"b"), .val (.int .int 2))]]) [.strMap 0 [(s%"b", .val (.int .int 2))]]))
    s%"UPDATE \"table\" SET \"a\" = 1, \"b\" = 2"
    s%"UPDATE \"table\" SET \"a\" = $1, \"b\" = $2"
    s%"UPDATE \"table\" SET \"a\" = :arg_1, \"b\" = :arg_2"
    [(.int .int 1), (.int .int 2)] := by decide +kernel

-- TestUpdate_Set_Map_LastWriteWins / Simple
example : Renders (do return Stmt.update (← UpdateStmt.Set (← Verif.update (.val (.str s%"table"))) [.anyMap [(.val (.str s%"a"), .val (.int .int 1)), (.val (.str s%"b"), .val (.int .int 2))], .anyMap [(.val (.str s%"a"), .val (.int .int 3))]]))
    s%"UPDATE \"table\" SET \"a\" = 3, \"b\" = 2"
    s%"UPDATE \"table\" SET \"a\" = $1, \"b\" = $2"
    s%"UPDATE \"table\" SET \"a\" = :arg_1, \"b\" = :arg_2"
    [(.int .int 3), (.int .int 2)] := by decide +kernel

-- TestUpdate_Set_Map_LastWriteWins / Simple
example : Renders (do return Stmt.update (← UpdateStmt.Set (← Verif.update (.val (.str s%"table"))) [.strMap 0 [(s%"a", .val (.int .int 1)), (s%"b", .val (.int .int 2))], .strMap 0 [(s%"a", .val (.int .int 3))]]))
    s%"UPDATE \"table\" SET \"a\" = 3, \"b\" = 2"
    s%"UPDATE \"table\" SET \"a\" = $1, \"b\" = $2"
    s%"UPDATE \"table\" SET \"a\" = :arg_1, \"b\" = :arg_2"
    [(.int .int 3), (.int .int 2)] := by decide +kernel

-- TestUpdate_Set_Map_LastWriteWins / Simple
example : Renders (do return Stmt.update (← UpdateStmt.Set (← UpdateStmt.Set (← Verif.update (.val (.str s%"table"))) [.anyMap [(.val (.str s%"a"), .val (.int .int 1)), (.val (.str s%"b"), .val (.int .int 2))]]) [.anyMap [(.val (.str s%"a"), .val (.int .int 3))]]))
    s%"UPDATE \"table\" SET \"a\" = 3, \"b\" = 2"
    s%"UPDATE \"table\" SET \"a\" = $1, \"b\" = $2"
    s%"UPDATE \"table\" SET \"a\" = :arg_1, \"b\" = :arg_2"
    [(.int .int 3), (.int .int 2)] := by decide +kernel

-- TestUpdate_Set_Map_LastWriteWins / Simple
example : Renders (do return Stmt.update (← UpdateStmt.Set (← UpdateStmt.Set (← Verif.update (.val (.str s%"table"))) [.strMap 0 [(s%"a", .val (.int .int 1)), (s%"b", .val (.int .int 2))]]) [.strMap 0 [(s%"a", .val (.int .int 3))]]))
    s%"UPDATE \"table\" SET \"a\" = 3, \"b\" = 2"
    s%"UPDATE \"table\" SET \"a\" = $1, \"b\" = $2"
    s%"UPDATE \"table\" SET \"a\" = :arg_1, \"b\" = :arg_2"
    [(.int .int 3), (.int .int 2)] := by decide +kernel

-- TestUpdate_Set_Map_LastWriteWins / Simple
example : Renders (do return Stmt.update (← UpdateStmt.Set (← UpdateStmt.Set (← Verif.update (.val (.str s%"table"))) [.anyMap [(.val (.str s%"a"), .val (.int .int 1)), (.val (.str s%"b"), .val (.int .int 2))]]) [.strMap 0 [(s%"a", .val (.int .int 3))]]))
    s%"UPDATE \"table\" SET \"a\" = 3, \"b\" = 2"
    s%"UPDATE \"table\" SET \"a\" = $1, \"b\" = $2"
    s%"UPDATE \"table\" SET \"a\" = :arg_1, \"b\" = :arg_2"
    [(.int .int 3), (.int .int 2)] := by decide +kernel

-- TestUpdate_Set_Pair / Single Pair
example : Renders (do return Stmt.update (← UpdateStmt.Set (← Verif.update (.val (.str s%"table"))) [.pair (.val (.str s%"a")) (.val (.int .int 1))]))
    s%"UPDATE \"table\" SET \"a\" = 1"
    s%"UPDATE \"table\" SET \"a\" = $1"
    s%"UPDATE \"table\" SET \"a\" = :arg_1"
    [(.int .int 1)] := by decide +kernel

-- TestUpdate_Set_Pair / Simple
example : Renders (do return Stmt.update (← UpdateStmt.Set (← Verif.update (.val (.str s%"table"))) [.pair (.val (.str s%"a")) (.val (.int .int 1)), .pair (.val (.str s%"b")) (.val (.int .int 2))]))
    s%"UPDATE \"table\" SET \"a\" = 1, \"b\" = 2"
    s%"UPDATE \"table\" SET \"a\" = $1, \"b\" = $2"
    s%"UPDATE \"table\" SET \"a\" = :arg_1, \"b\" = :arg_2"
    [(.int .int 1), (.int .int 2)] := by decide +kernel

-- TestUpdate_Set_Pair / Simple
example : Renders (do return Stmt.update (← UpdateStmt.Set (← UpdateStmt.Set (← Verif.update (.val (.str s%"table"))) [.pair (.val (.str s%"a")) (.val (.int .int 1))]) [.pair (.val (.str s%"b")) (.val (.int .int 2))]))
    s%"UPDATE \"table\" SET \"a\" = 1, \"b\" = 2"
    s%"UPDATE \"table\" SET \"a\" = $1, \"b\" = $2"
    s%"UPDATE \"table\" SET \"a\" = :arg_1, \"b\" = :arg_2"
    [(.int .int 1), (.int .int 2)] := by decide +kernel

-- TestUpdate_Set_Pair / Simple
example : Renders (do return Stmt.update (← UpdateStmt.Set (← Verif.update (.val (.str s%"table"))) [.pair (.selExpr (.column ({ name := s%"a" } : Column))) (.val (.int .int 1)), .pair (.val (.str s%"b")) (.val (.int .int 2))]))
    s%"UPDATE \"table\" SET \"a\" = 1, \"b\" = 2"
    s%"UPDATE \"table\" SET \"a\" = $1, \"b\" = $2"
    s%"UPDATE \"table\" SET \"a\" = :arg_1, \"b\" = :arg_2"
    [(.int .int 1), (.int .int 2)] := by decide +kernel

-- TestUpdate_Set_Pair_Uniqueness / Simple
example : Renders (do return Stmt.update (← UpdateStmt.Set (← Verif.update (.val (.str s%"table"))) [.pair (.val (.str s%"a")) (.val (.int .int 1)), .pair (.val (.str s%"a")) (.val (.int .int 1))]))
    s%"UPDATE \"table\" SET \"a\" = 1"
    s%"UPDATE \"table\" SET \"a\" = $1"
    s%"UPDATE \"table\" SET \"a\" = :arg_1"
    [(.int .int 1)] := by decide +kernel

-- TestUpdate_Set_Pair_Uniqueness / Simple
example : Renders (do return Stmt.update (← UpdateStmt.Set (← UpdateStmt.Set (← Verif.update (.val (.str s%"table"))) [.pair (.val (.str s%"a")) (.val (.int .int 1)), .pair (.val (.str s%"a")) (.val (.int .int 1))]) [.pair (.val (.str s%"a")) (.val (.int .int 1)), .pair (.val (.str s%"a")) (.val (.int .int 1))]))
    s%"UPDATE \"table\" SET \"a\" = 1"
    s%"UPDATE \"table\" SET \"a\" = $1"
    s%"UPDATE \"table\" SET \"a\" = :arg_1"
    [(.int .int 1)] := by decide +kernel

-- TestUpdate_Set_Pair_Uniqueness / Last write
example : Renders (do return Stmt.update (← UpdateStmt.Set (← Verif.update (.val (.str s%"table"))) [.pair (.val (.str s%"a")) (.val (.int .int 1)), .pair (.val (.str s%"b")) (.val (.int .int 2)), .pair (.val (.str s%"b")) (.val (.int .int 5)), .pair (.val (.str s%"c")) (.val (.int .int 3)), .pair (.val (.str s%"a")) (.val (.int .int 4))]))
    s%"UPDATE \"table\" SET \"a\" = 4, \"b\" = 5, \"c\" = 3"
    s%"UPDATE \"table\" SET \"a\" = $1, \"b\" = $2, \"c\" = $3"
    s%"UPDATE \"table\" SET \"a\" = :arg_1, \"b\" = :arg_2, \"c\" = :arg_3"
    [(.int .int 4), (.int .int 5), (.int .int 3)] := by decide +kernel

-- TestUpdate_Set_Pair_Uniqueness / Last write
example : Renders (do return Stmt.update (← UpdateStmt.Set (← UpdateStmt.Set (← UpdateStmt.Set (← Verif.update (.val (.str s%"table"))) [.pair (.val (.str s%"a")) (.val (.int .int 1)), .pair (.val (.str s%"b")) (.val (.int .int 2))]) [.pair (.val (.str s%"b")) (.val (.int .int 5)), .pair (.val (.str s%"c")) (.val (.int .int 3))]) [.pair (.val (.str s%"a")) (.val (.int .int 4))]))
    s%"UPDATE \"table\" SET \"a\" = 4, \"b\" = 5, \"c\" = 3"
    s%"UPDATE \"table\" SET \"a\" = $1, \"b\" = $2, \"c\" = $3"
    s%"UPDATE \"table\" SET \"a\" = :arg_1, \"b\" = :arg_2, \"c\" = :arg_3"
    [(.int .int 4), (.int .int 5), (.int .int 3)] := by decide +kernel

-- TestUpdate_Set_Pair_LastWriteWins / Simple
example : Renders (do return Stmt.update (← UpdateStmt.Set (← Verif.update (.val (.str s%"table"))) [.pair (.val (.str s%"a")) (.val (.int .int 1)), .pair (.val (.str s%"b")) (.val (.int .int 2)), .pair (.val (.str s%"b")) (.val (.int .int 5)), .pair (.val (.str s%"c")) (.val (.int .int 3)), .pair (.val (.str s%"a")) (.val (.int .int 4))]))
    s%"UPDATE \"table\" SET \"a\" = 4, \"b\" = 5, \"c\" = 3"
    s%"UPDATE \"table\" SET \"a\" = $1, \"b\" = $2, \"c\" = $3"
    s%"UPDATE \"table\" SET \"a\" = :arg_1, \"b\" = :arg_2, \"c\" = :arg_3"
    [(.int .int 4), (.int .int 5), (.int .int 3)] := by decide +kernel

-- TestUpdate_Set_Pair_LastWriteWins / Simple
example : Renders (do return Stmt.update (← UpdateStmt.Set (← UpdateStmt.Set (← UpdateStmt.Set (← Verif.update (.val (.str s%"table"))) [.pair (.val (.str s%"a")) (.val (.int .int 1)), .pair (.val (.str s%"b")) (.val (.int .int 2))]) [.pair (.val (.str s%"b")) (.val (.int .int 5)), .pair (.val (.str s%"c")) (.val (.int .int 3))]) [.pair (.val (.str s%"a")) (.val (.int .int 4))]))
    s%"UPDATE \"table\" SET \"a\" = 4, \"b\" = 5, \"c\" = 3"
    s%"UPDATE \"table\" SET \"a\" = $1, \"b\" = $2, \"c\" = $3"
    s%"UPDATE \"table\" SET \"a\" = :arg_1, \"b\" = :arg_2, \"c\" = :arg_3"
    [(.int .int 4), (.int .int 5), (.int .int 3)] := by decide +kernel

-- TestUpdate_Set_MapAndPair / Simple
example : Renders (do return Stmt.update (← UpdateStmt.Set (← Verif.update (.val (.str s%"table"))) [.anyMap [(.val (.str s%"a"), .val (.int .int 1)), (.val (.str s%"b"), .val (.int .int 2))], .pair (.val (.str s%"d")) (.val (.int .int 4)), .anyMap [(.val (.str s%"c"), .val (.int .int 3))], .pair (.val (.str s%"e")) (.val (.int .int 5))]))
    s%"UPDATE \"table\" SET \"a\" = 1, \"b\" = 2, \"c\" = 3, \"d\" = 4, \"e\" = 5"
    s%"UPDATE \"table\" SET \"a\" = $1, \"b\" = $2, \"c\" = $3, \"d\" = $4, \"e\" = $5"
    s%"UPDATE \"table\" SET \"a\" = :arg_1, \"b\" = :arg_2, \"c\" = :arg_3, \"d\" = :arg_4, \"e\" = :arg_5"
    [(.int .int 1), (.int .int 2), (.int .int 3), (.int .int 4), (.int .int 5)] := by decide +kernel

-- TestUpdate_Set_MapAndPair / Simple
example : Renders (do return Stmt.update (← UpdateStmt.Set (← UpdateStmt.Set (← Verif.update (.val (.str s%"table"))) [.anyMap [(.val (.str s%"a"), .val (.int .int 1)), (.val (.str s%"b"), .val (.int .int 2))], .pair (.val (.str s%"d")) (.val (.int .int 4))]) [.anyMap [(.val (.str s%"c"), .val (.int .int 3))], .pair (.val (.str s%"e")) (.val (.int .int 5))]))
    s%"UPDATE \"table\" SET \"a\" = 1, \"b\" = 2, \"c\" = 3, \"d\" = 4, \"e\" = 5"
    s%"UPDATE \"table\" SET \"a\" = $1, \"b\" = $2, \"c\" = $3, \"d\" = $4, \"e\" = $5"
    s%"UPDATE \"table\" SET \"a\" = :arg_1, \"b\" = :arg_2, \"c\" = :arg_3, \"d\" = :arg_4, \"e\" = :arg_5"
    [(.int .int 1), (.int .int 2), (.int .int 3), (.int .int 4), (.int .int 5)] := by decide +kernel

-- TestUpdate_Set_MapAndPair / With column instances
example : Renders (do return Stmt.update (← UpdateStmt.Set (← Verif.update (.val (.str s%"table"))) [.anyMap [(.selExpr (.column ({ name := s%"foo" } : Column)), .val (.int .int 2)), (.val (.str s%"a"), .val (.int .int 1))]]))
    s%"UPDATE \"table\" SET \"a\" = 1, \"foo\" = 2"
    s%"UPDATE \"table\" SET \"a\" = $1, \"foo\" = $2"
    s%"UPDATE \"table\" SET \"a\" = :arg_1, \"foo\" = :arg_2"
    [(.int .int 1), (.int .int 2)] := by decide +kernel

-- TestUpdate_Set_MapAndPair_Uniqueness / Simple
example : Renders (do return Stmt.update (← UpdateStmt.Set (← Verif.update (.val (.str s%"table"))) [.anyMap [(.val (.str s%"a"), .val (.int .int 1)), (.val (.str s%"b"), .val (.int .int 2))], .pair (.val (.str s%"a")) (.val (.int .int 1)), .anyMap [(.val (.str s%"b"), .val (.int .int 2))], .pair (.val (.str s%"c")) (.val (.int .int 3))]))
    s%"UPDATE \"table\" SET \"a\" = 1, \"b\" = 2, \"c\" = 3"
    s%"UPDATE \"table\" SET \"a\" = $1, \"b\" = $2, \"c\" = $3"
    s%"UPDATE \"table\" SET \"a\" = :arg_1, \"b\" = :arg_2, \"c\" = :arg_3"
    [(.int .int 1), (.int .int 2), (.int .int 3)] := by decide +kernel

-- TestUpdate_Set_MapAndPair_Uniqueness / Simple
example : Renders (do return Stmt.update (← UpdateStmt.Set (← UpdateStmt.Set (← UpdateStmt.Set (← Verif.update (.val (.str s%"table"))) [.anyMap [(.val (.str s%"a"), .val (.int .int 1)), (.val (.str s%"b"), .val (.int .int 2))], .pair (.val (.str s%"a")) (.val (.int .int 1))]) [.anyMap [(.val (.str s%"b"), .val (.int .int 2))], .pair (.val (.str s%"b")) (.val (.int .int 2))]) [.anyMap [(.val (.str s%"c"), .val (.int .int 3))], .pair (.val (.str s%"c")) (.val (.int .int 3))]))
    s%"UPDATE \"table\" SET \"a\" = 1, \"b\" = 2, \"c\" = 3"
    s%"UPDATE \"table\" SET \"a\" = $1, \"b\" = $2, \"c\" = $3"
    s%"UPDATE \"table\" SET \"a\" = :arg_1, \"b\" = :arg_2, \"c\" = :arg_3"
    [(.int .int 1), (.int .int 2), (.int .int 3)] := by decide +kernel

-- TestUpdate_Set_MapAndPair_LastWriteWins / Simple
example : Renders (do return Stmt.update (← UpdateStmt.Set (← Verif.update (.val (.str s%"table"))) [.anyMap [(.val (.str s%"a"), .val (.int .int 1)), (.val (.str s%"b"), .val (.int .int 2))], .pair (.val (.str s%"a")) (.val (.int .int 2)), .anyMap [(.val (.str s%"b"), .val (.int .int 3))], .pair (.val (.str s%"c")) (.val (.int .int 4))]))
    s%"UPDATE \"table\" SET \"a\" = 2, \"b\" = 3, \"c\" = 4"
    s%"UPDATE \"table\" SET \"a\" = $1, \"b\" = $2, \"c\" = $3"
    s%"UPDATE \"table\" SET \"a\" = :arg_1, \"b\" = :arg_2, \"c\" = :arg_3"
    [(.int .int 2), (.int .int 3), (.int .int 4)] := by decide +kernel

-- TestUpdate_Set_MapAndPair_LastWriteWins / Simple
example : Renders (do return Stmt.update (← UpdateStmt.Set (← UpdateStmt.Set (← UpdateStmt.Set (← Verif.update (.val (.str s%"table"))) [.anyMap [(.val (.str s%"a"), .val (.int .int 1)), (.val (.str s%"b"), .val (.int .int 2))], .pair (.val (.str s%"a")) (.val (.int .int 2))]) [.anyMap [(.val (.str s%"b"), .val (.int .int 2))], .pair (.val (.str s%"b")) (.val (.int .int 3))]) [.anyMap [(.val (.str s%"c"), .val (.int .int 3))], .pair (.val (.str s%"c")) (.val (.int .int 4))]))
    s%"UPDATE \"table\" SET \"a\" = 2, \"b\" = 3, \"c\" = 4"
    s%"UPDATE \"table\" SET \"a\" = $1, \"b\" = $2, \"c\" = $3"
    s%"UPDATE \"table\" SET \"a\" = :arg_1, \"b\" = :arg_2, \"c\" = :arg_3"
    [(.int .int 2), (.int .int 3), (.int .int 4)] := by decide +kernel

-- TestUpdate_Set_Valuer / pq.NullTime not null
example : Renders (do return Stmt.update (← UpdateStmt.Set (← Verif.update (.val (.str s%"table"))) [.anyMap [(.val (.str s%"created_at"), .val (.valuerOk 1 (.time 1511455647000000000 1)))]]))
    s%"UPDATE \"table\" SET \"created_at\" = '2017-11-23 16:47:27+00'"
    s%"UPDATE \"table\" SET \"created_at\" = $1"
    s%"UPDATE \"table\" SET \"created_at\" = :arg_1"
    [(.valuerOk 1 (.time 1511455647000000000 1))] := by decide +kernel

-- TestUpdate_Set_Valuer / pq.NullTime null
example : Renders (do return Stmt.update (← UpdateStmt.Set (← Verif.update (.val (.str s%"table"))) [.anyMap [(.val (.str s%"created_at"), .val (.valuerOk 7 .nil))]]))
    s%"UPDATE \"table\" SET \"created_at\" = NULL"
    s%"UPDATE \"table\" SET \"created_at\" = $1"
    s%"UPDATE \"table\" SET \"created_at\" = :arg_1"
    [(.valuerOk 7 .nil)] := by decide +kernel

-- TestUpdate_Set_Valuer / pq.NullString not null
example : Renders (do return Stmt.update (← UpdateStmt.Set (← Verif.update (.val (.str s%"table"))) [.anyMap [(.val (.str s%"message"), .val (.valuerOk 8 (.str s%"ok")))]]))
    s%"UPDATE \"table\" SET \"message\" = 'ok'"
    s%"UPDATE \"table\" SET \"message\" = $1"
    s%"UPDATE \"table\" SET \"message\" = :arg_1"
    [(.valuerOk 8 (.str s%"ok"))] := by decide +kernel

-- TestUpdate_Set_Valuer / pq.NullString null
example : Renders (do return Stmt.update (← UpdateStmt.Set (← Verif.update (.val (.str s%"table"))) [.anyMap [(.val (.str s%"message"), .val (.valuerOk 9 .nil))]]))
    s%"UPDATE \"table\" SET \"message\" = NULL"
    s%"UPDATE \"table\" SET \"message\" = $1"
    s%"UPDATE \"table\" SET \"message\" = :arg_1"
    [(.valuerOk 9 .nil)] := by decide +kernel

-- TestUpdate_Set_Valuer / sql.NullInt64 not null
example : Renders (do return Stmt.update (← UpdateStmt.Set (← Verif.update (.val (.str s%"table"))) [.anyMap [(.val (.str s%"count"), .val (.valuerOk 5 (.int .int64 30)))]]))
    s%"UPDATE \"table\" SET \"count\" = 30"
    s%"UPDATE \"table\" SET \"count\" = $1"
    s%"UPDATE \"table\" SET \"count\" = :arg_1"
    [(.valuerOk 5 (.int .int64 30))] := by decide +kernel

-- TestUpdate_Set_Valuer / sql.NullInt64 null
example : Renders (do return Stmt.update (← UpdateStmt.Set (← Verif.update (.val (.str s%"table"))) [.anyMap [(.val (.str s%"count"), .val (.valuerOk 10 .nil))]]))
    s%"UPDATE \"table\" SET \"count\" = NULL"
    s%"UPDATE \"table\" SET \"count\" = $1"
    s%"UPDATE \"table\" SET \"count\" = :arg_1"
    [(.valuerOk 10 .nil)] := by decide +kernel

-- TestUpdate_Set_Subquery / Coalesce
example : Renders (do return Stmt.update (← UpdateStmt.Set (← Verif.update (.val (.str s%"test1"))) [.pair (.val (.str s%"count")) (.selectB (← SelectStmt.Where (← SelectStmt.From (← Verif.select [.expr (.raw s%"COALESCE(COUNT(*), 0)")]) [.val (.str s%"test2")]) (← Ident.Equal (Ident.str s%"disabled") (.val (.bool false)))))]))
    s%"UPDATE \"test1\" SET \"count\" = (SELECT COALESCE(COUNT(*), 0) FROM \"test2\" WHERE (\"disabled\" = false))"
    s%"UPDATE \"test1\" SET \"count\" = (SELECT COALESCE(COUNT(*), 0) FROM \"test2\" WHERE (\"disabled\" = $1))"
    s%"UPDATE \"test1\" SET \"count\" = (SELECT COALESCE(COUNT(*), 0) FROM \"test2\" WHERE (\"disabled\" = :arg_1))"
    [(.bool false)] := by decide +kernel

-- TestUpdate_Set_Using / Invoking Using() without any argument must panic
example : Fails (do return Stmt.update (← UpdateStmt.Using (← UpdateStmt.Set (← Verif.update (.val (.str s%"table"))) [.val (.str s%"a"), .val (.str s%"b"), .val (.str s%"c")]) [])) := by decide +kernel

-- TestUpdate_Set_Using / Invoking Using() without any columns must panic
example : Fails (do return Stmt.update (← UpdateStmt.Using (← UpdateStmt.Set (← Verif.update (.val (.str s%"table"))) [.pair (.val (.str s%"a")) (.val (.int .int 30))]) [])) := by decide +kernel

-- TestUpdate_Set_Using / Multi-values
example : Renders (do return Stmt.update (← UpdateStmt.Using (← UpdateStmt.Set (← Verif.update (.val (.str s%"table"))) [.val (.str s%"a"), .val (.str s%"b"), .val (.str s%"c")]) [.val (.str s%"d"), .val (.str s%"e"), .val (.str s%"f")]))
    s%"UPDATE \"table\" SET (\"a\", \"b\", \"c\") = ('d', 'e', 'f')"
    s%"UPDATE \"table\" SET (\"a\", \"b\", \"c\") = ($1, $2, $3)"
    s%"UPDATE \"table\" SET (\"a\", \"b\", \"c\") = (:arg_1, :arg_2, :arg_3)"
    [(.str s%"d"), (.str s%"e"), (.str s%"f")] := by decide +kernel

-- TestUpdate_Set_Using / Multi-values
example : Renders (do return Stmt.update (← UpdateStmt.Using (← UpdateStmt.Set (← UpdateStmt.Set (← UpdateStmt.Set (← Verif.update (.val (.str s%"table"))) [.val (.str s%"a")]) [.val (.str s%"b")]) [.val (.str s%"c")]) [.val (.str s%"d"), .val (.str s%"e"), .val (.str s%"f")]))
    s%"UPDATE \"table\" SET (\"a\", \"b\", \"c\") = ('d', 'e', 'f')"
    s%"UPDATE \"table\" SET (\"a\", \"b\", \"c\") = ($1, $2, $3)"
    s%"UPDATE \"table\" SET (\"a\", \"b\", \"c\") = (:arg_1, :arg_2, :arg_3)"
    [(.str s%"d"), (.str s%"e"), (.str s%"f")] := by decide +kernel

-- TestUpdate_Set_Using / Columns to columns
example : Renders (do return Stmt.update (← UpdateStmt.Using (← UpdateStmt.Set (← Verif.update (.val (.str s%"table"))) [.val (.str s%"a"), .val (.str s%"b"), .val (.str s%"c")]) [.expr (.raw s%"d+1"), .expr (.raw s%"e+1"), .expr (.raw s%"f+1")]))
    s%"UPDATE \"table\" SET (\"a\", \"b\", \"c\") = (d+1, e+1, f+1)"
    s%"UPDATE \"table\" SET (\"a\", \"b\", \"c\") = (d+1, e+1, f+1)"
    s%"UPDATE \"table\" SET (\"a\", \"b\", \"c\") = (d+1, e+1, f+1)"
    [] := by decide +kernel

-- TestUpdate_Set_Using / Sub-select
example : Renders (do return Stmt.update (← UpdateStmt.Using (← UpdateStmt.Set (← Verif.update (.val (.str s%"table"))) [.val (.str s%"a"), .val (.str s%"b"), .val (.str s%"c")]) [.selectB (← SelectStmt.Where (← SelectStmt.From (← Verif.select [.val (.str s%"a"), .val (.str s%"b"), .val (.str s%"c")]) [.val (.str s%"table")]) (← Ident.Equal (Ident.str s%"disabled") (.val (.bool false))))]))
    s%"UPDATE \"table\" SET (\"a\", \"b\", \"c\") = (SELECT \"a\", \"b\", \"c\" FROM \"table\" WHERE (\"disabled\" = false))"
    s%"UPDATE \"table\" SET (\"a\", \"b\", \"c\") = (SELECT \"a\", \"b\", \"c\" FROM \"table\" WHERE (\"disabled\" = $1))"
    s%"UPDATE \"table\" SET (\"a\", \"b\", \"c\") = (SELECT \"a\", \"b\", \"c\" FROM \"table\" WHERE (\"disabled\" = :arg_1))"
    [(.bool false)] := by decide +kernel

-- TestUpdate_OnlyTable / Simple
example : Renders (do return Stmt.update (← UpdateStmt.Set (← UpdateStmt.Only (← Verif.update (.val (.str s%"table")))) [.anyMap [(.val (.str s%"a"), .val (.int .int 1))]]))
    s%"UPDATE ONLY \"table\" SET \"a\" = 1"
    s%"UPDATE ONLY \"table\" SET \"a\" = $1"
    s%"UPDATE ONLY \"table\" SET \"a\" = :arg_1"
    [(.int .int 1)] := by decide +kernel

-- TestUpdate_Where / Simple
example : Renders (do return Stmt.update (← UpdateStmt.Where (← UpdateStmt.Set (← Verif.update (.val (.str s%"table"))) [.anyMap [(.val (.str s%"a"), .val (.int .int 1))]]) (← Ident.Equal (Ident.str s%"id") (.val (.int .int 1)))))
    s%"UPDATE \"table\" SET \"a\" = 1 WHERE (\"id\" = 1)"
    s%"UPDATE \"table\" SET \"a\" = $1 WHERE (\"id\" = $2)"
    s%"UPDATE \"table\" SET \"a\" = :arg_1 WHERE (\"id\" = :arg_2)"
    [(.int .int 1), (.int .int 1)] := by decide +kernel

-- TestUpdate_Where / AND
example : Renders (do return Stmt.update (← UpdateStmt.And (← UpdateStmt.Where (← UpdateStmt.Set (← Verif.update (.val (.str s%"table"))) [.anyMap [(.val (.str s%"a"), .val (.int .int 1))]]) (← Ident.Equal (Ident.str s%"id") (.val (.int .int 1)))) (← Ident.Equal (Ident.str s%"status") (.val (.str s%"online")))))
    s%"UPDATE \"table\" SET \"a\" = 1 WHERE ((\"id\" = 1) AND (\"status\" = 'online'))"
    s%"UPDATE \"table\" SET \"a\" = $1 WHERE ((\"id\" = $2) AND (\"status\" = $3))"
    s%"UPDATE \"table\" SET \"a\" = :arg_1 WHERE ((\"id\" = :arg_2) AND (\"status\" = :arg_3))"
    [(.int .int 1), (.int .int 1), (.str s%"online")] := by decide +kernel

-- TestUpdate_Where / OR
example : Renders (do return Stmt.update (← UpdateStmt.Or (← UpdateStmt.Where (← UpdateStmt.Set (← Verif.update (.val (.str s%"table"))) [.anyMap [(.val (.str s%"a"), .val (.int .int 1))]]) (← Ident.Equal (Ident.str s%"id") (.val (.int .int 1)))) (← Ident.Equal (Ident.str s%"status") (.val (.str s%"online")))))
    s%"UPDATE \"table\" SET \"a\" = 1 WHERE ((\"id\" = 1) OR (\"status\" = 'online'))"
    s%"UPDATE \"table\" SET \"a\" = $1 WHERE ((\"id\" = $2) OR (\"status\" = $3))"
    s%"UPDATE \"table\" SET \"a\" = :arg_1 WHERE ((\"id\" = :arg_2) OR (\"status\" = :arg_3))"
    [(.int .int 1), (.int .int 1), (.str s%"online")] := by decide +kernel

-- TestUpdate_From / Simple
example : Renders (do return Stmt.update (← UpdateStmt.Where (← UpdateStmt.From (← UpdateStmt.Set (← Verif.update (.val (.str s%"table1"))) [.anyMap [(.val (.str s%"a"), .val (.int .int 1))]]) (.val (.str s%"table2"))) (← Ident.Equal (Ident.str s%"table2.id") (.expr (.raw s%"table1.id")))))
    s%"UPDATE \"table1\" SET \"a\" = 1 FROM \"table2\" WHERE (\"table2\".\"id\" = table1.id)"
    s%"UPDATE \"table1\" SET \"a\" = $1 FROM \"table2\" WHERE (\"table2\".\"id\" = table1.id)"
    s%"UPDATE \"table1\" SET \"a\" = :arg_1 FROM \"table2\" WHERE (\"table2\".\"id\" = table1.id)"
    [(.int .int 1)] := by decide +kernel

-- TestUpdate_Returning / *
example : Renders (do return Stmt.update (← UpdateStmt.Returning (← UpdateStmt.Set (← Verif.update (.val (.str s%"table"))) [.anyMap [(.val (.str s%"a"), .val (.int .int 1))]]) [.expr (.raw s%"*")]))
    s%"UPDATE \"table\" SET \"a\" = 1 RETURNING *"
    s%"UPDATE \"table\" SET \"a\" = $1 RETURNING *"
    s%"UPDATE \"table\" SET \"a\" = :arg_1 RETURNING *"
    [(.int .int 1)] := by decide +kernel

-- TestUpdate_With / Simple with statement with select distinct
example : Renders (do return Stmt.update (← UpdateStmt.Where (← UpdateStmt.From (← UpdateStmt.Set (← UpdateStmt.With (← Verif.update (.val (.str s%"users"))) [(← newWithQuery s%"contributors" (.selectB (← SelectStmt.Where (← SelectStmt.From (← SelectStmt.Distinct (← Verif.select [.val (.str s%"user_id")])) [.val (.str s%"contribution")]) (← Ident.IsNull (Ident.str s%"deleted_at") true))))]) [.pair (.val (.str s%"newsletter_subscribed")) (.val (.bool true))]) (.val (.str s%"contributors"))) (← Ident.Equal (Ident.str s%"users.id") (.expr (.raw s%"contributors.user_id")))))
    s%"WITH contributors AS (SELECT DISTINCT \"user_id\" FROM \"contribution\" WHERE (\"deleted_at\" IS NULL)) UPDATE \"users\" SET \"newsletter_subscribed\" = true FROM \"contributors\" WHERE (\"users\".\"id\" = contributors.user_id)"
    s%"WITH contributors AS (SELECT DISTINCT \"user_id\" FROM \"contribution\" WHERE (\"deleted_at\" IS NULL)) UPDATE \"users\" SET \"newsletter_subscribed\" = $1 FROM \"contributors\" WHERE (\"users\".\"id\" = contributors.user_id)"
    s%"WITH contributors AS (SELECT DISTINCT \"user_id\" FROM \"contribution\" WHERE (\"deleted_at\" IS NULL)) UPDATE \"users\" SET \"newsletter_subscribed\" = :arg_1 FROM \"contributors\" WHERE (\"users\".\"id\" = contributors.user_id)"
    [(.bool true)] := by decide +kernel

-- TestUpdate_With / Multiple with statements with select distinct
example : Renders (do return Stmt.update (← UpdateStmt.Or (← UpdateStmt.Where (← UpdateStmt.Set (← UpdateStmt.With (← UpdateStmt.With (← Verif.update (.val (.str s%"users"))) [(← newWithQuery s%"contributors" (.selectB (← SelectStmt.Where (← SelectStmt.From (← SelectStmt.Distinct (← Verif.select [.val (.str s%"user_id")])) [.val (.str s%"contribution")]) (← Ident.IsNull (Ident.str s%"deleted_at") true))))]) [(← newWithQuery s%"commentators" (.selectB (← SelectStmt.Where (← SelectStmt.From (← SelectStmt.Distinct (← Verif.select [.val (.str s%"user_id")])) [.val (.str s%"comment")]) (← Ident.IsNull (Ident.str s%"deleted_at") true))))]) [.pair (.val (.str s%"newsletter_subscribed")) (.val (.bool true))]) (← Ident.In (Ident.str s%"users.id") [.selectB (← SelectStmt.From (← Verif.select [.val (.str s%"user_id")]) [.val (.str s%"contributors")])])) (← Ident.In (Ident.str s%"users.id") [.selectB (← SelectStmt.From (← Verif.select [.val (.str s%"user_id")]) [.val (.str s%"commentators")])])))
    s%"WITH contributors AS (SELECT DISTINCT \"user_id\" FROM \"contribution\" WHERE (\"deleted_at\" IS NULL)), commentators AS (SELECT DISTINCT \"user_id\" FROM \"comment\" WHERE (\"deleted_at\" IS NULL)) UPDATE \"users\" SET \"newsletter_subscribed\" = true WHERE ((\"users\".\"id\" IN (SELECT \"user_id\" FROM \"contributors\")) OR (\"users\".\"id\" IN (SELECT \"user_id\" FROM \"commentators\")))"
    s%"WITH contributors AS (SELECT DISTINCT \"user_id\" FROM \"contribution\" WHERE (\"deleted_at\" IS NULL)), commentators AS (SELECT DISTINCT \"user_id\" FROM \"comment\" WHERE (\"deleted_at\" IS NULL)) UPDATE \"users\" SET \"newsletter_subscribed\" = $1 WHERE ((\"users\".\"id\" IN (SELECT \"user_id\" FROM \"contributors\")) OR (\"users\".\"id\" IN (SELECT \"user_id\" FROM \"commentators\")))"
    s%"WITH contributors AS (SELECT DISTINCT \"user_id\" FROM \"contribution\" WHERE (\"deleted_at\" IS NULL)), commentators AS (SELECT DISTINCT \"user_id\" FROM \"comment\" WHERE (\"deleted_at\" IS NULL)) UPDATE \"users\" SET \"newsletter_subscribed\" = :arg_1 WHERE ((\"users\".\"id\" IN (SELECT \"user_id\" FROM \"contributors\")) OR (\"users\".\"id\" IN (SELECT \"user_id\" FROM \"commentators\")))"
    [(.bool true)] := by decide +kernel

-- TestDelete / Simple
example : Renders (do return Stmt.delete (← Verif.delete (.val (.str s%"table"))))
    s%"DELETE FROM \"table\""
    s%"DELETE FROM \"table\""
    s%"DELETE FROM \"table\""
    [] := by decide +kernel

-- TestDelete / Simple
example : Renders (do return Stmt.delete (← Verif.delete (.table ({ name := s%"table" } : Table))))
    s%"DELETE FROM \"table\""
    s%"DELETE FROM \"table\""
    s%"DELETE FROM \"table\""
    [] := by decide +kernel

-- TestDelete / Only
example : Renders (do return Stmt.delete (← Verif.delete (.table ({ ({ name := s%"table" } : Table) with only := true } : Table))))
    s%"DELETE FROM ONLY \"table\""
    s%"DELETE FROM ONLY \"table\""
    s%"DELETE FROM ONLY \"table\""
    [] := by decide +kernel

-- TestDelete / As
example : Renders (do return Stmt.delete (← Verif.delete (.table ({ ({ name := s%"table" } : Table) with alias := s%"foobar" } : Table))))
    s%"DELETE FROM \"table\" AS \"foobar\""
    s%"DELETE FROM \"table\" AS \"foobar\""
    s%"DELETE FROM \"table\" AS \"foobar\""
    [] := by decide +kernel

-- TestDelete / As only
example : Renders (do return Stmt.delete (← Verif.delete (.table ({ ({ ({ name := s%"table" } : Table) with alias := s%"foobar" } : Table) with only := true } : Table))))
    s%"DELETE FROM ONLY \"table\" AS \"foobar\""
    s%"DELETE FROM ONLY \"table\" AS \"foobar\""
    s%"DELETE FROM ONLY \"table\" AS \"foobar\""
    [] := by decide +kernel

-- TestDelete_Comment / Simple
example : Renders (do return Stmt.delete (← DeleteStmt.Comment (← Verif.delete (.val (.str s%"table"))) s%"/foo"))
    s%"DELETE FROM \"table\"; -- /foo"
    s%"DELETE FROM \"table\"; -- /foo"
    s%"DELETE FROM \"table\"; -- /foo"
    [] := by decide +kernel

-- TestDelete_Comment / Simple
example : Renders (do return Stmt.delete (← DeleteStmt.Comment (← Verif.delete (.table ({ name := s%"table" } : Table))) s%"/foo"))
    s%"DELETE FROM \"table\"; -- /foo"
    s%"DELETE FROM \"table\"; -- /foo"
    s%"DELETE FROM \"table\"; -- /foo"
    [] := by decide +kernel

-- TestDelete_Using / One table
example : Renders (do return Stmt.delete (← DeleteStmt.Using (← Verif.delete (.val (.str s%"table"))) [.val (.str s%"foobar")]))
    s%"DELETE FROM \"table\" USING \"foobar\""
    s%"DELETE FROM \"table\" USING \"foobar\""
    s%"DELETE FROM \"table\" USING \"foobar\""
    [] := by decide +kernel

-- TestDelete_Using / One table
example : Renders (do return Stmt.delete (← DeleteStmt.Using (← Verif.delete (.val (.str s%"table"))) [.table ({ name := s%"foobar" } : Table)]))
    s%"DELETE FROM \"table\" USING \"foobar\""
    s%"DELETE FROM \"table\" USING \"foobar\""
    s%"DELETE FROM \"table\" USING \"foobar\""
    [] := by decide +kernel

-- TestDelete_Using / One table as
example : Renders (do return Stmt.delete (← DeleteStmt.Using (← Verif.delete (.val (.str s%"table"))) [.table ({ ({ name := s%"foobar" } : Table) with alias := s%"foo" } : Table)]))
    s%"DELETE FROM \"table\" USING \"foobar\" AS \"foo\""
    s%"DELETE FROM \"table\" USING \"foobar\" AS \"foo\""
    s%"DELETE FROM \"table\" USING \"foobar\" AS \"foo\""
    [] := by decide +kernel

-- TestDelete_Using / Two tables
example : Renders (do return Stmt.delete (← DeleteStmt.Using (← Verif.delete (.val (.str s%"table"))) [.val (.str s%"foobar"), .val (.str s%"example")]))
    s%"DELETE FROM \"table\" USING \"foobar\", \"example\""
    s%"DELETE FROM \"table\" USING \"foobar\", \"example\""
    s%"DELETE FROM \"table\" USING \"foobar\", \"example\""
    [] := by decide +kernel

-- TestDelete_Using / Two tables
example : Renders (do return Stmt.delete (← DeleteStmt.Using (← Verif.delete (.val (.str s%"table"))) [.table ({ name := s%"foobar" } : Table), .val (.str s%"example")]))
    s%"DELETE FROM \"table\" USING \"foobar\", \"example\""
    s%"DELETE FROM \"table\" USING \"foobar\", \"example\""
    s%"DELETE FROM \"table\" USING \"foobar\", \"example\""
    [] := by decide +kernel

-- TestDelete_Using / Two tables as
example : Renders (do return Stmt.delete (← DeleteStmt.Using (← Verif.delete (.val (.str s%"table"))) [.table ({ name := s%"example" } : Table), .table ({ ({ name := s%"foobar" } : Table) with alias := s%"foo" } : Table)]))
    s%"DELETE FROM \"table\" USING \"example\", \"foobar\" AS \"foo\""
    s%"DELETE FROM \"table\" USING \"example\", \"foobar\" AS \"foo\""
    s%"DELETE FROM \"table\" USING \"example\", \"foobar\" AS \"foo\""
    [] := by decide +kernel

-- TestDelete_Where / Simple
example : Renders (do return Stmt.delete (← DeleteStmt.Where (← Verif.delete (.val (.str s%"table"))) (← Ident.Equal (Ident.str s%"id") (.val (.int .int 1)))))
    s%"DELETE FROM \"table\" WHERE (\"id\" = 1)"
    s%"DELETE FROM \"table\" WHERE (\"id\" = $1)"
    s%"DELETE FROM \"table\" WHERE (\"id\" = :arg_1)"
    [(.int .int 1)] := by decide +kernel

-- TestDelete_Where / Complex
example : Renders (do return Stmt.delete (← DeleteStmt.And (← DeleteStmt.Where (← Verif.delete (.val (.str s%"table"))) (← Ident.Equal (Ident.str s%"id") (.val (.int .int 1)))) (← Ident.GreaterThan (Ident.str s%"created_at") (.val (.time 1511455647000000000 1)))))
    s%"DELETE FROM \"table\" WHERE ((\"id\" = 1) AND (\"created_at\" > '2017-11-23 16:47:27+00'))"
    s%"DELETE FROM \"table\" WHERE ((\"id\" = $1) AND (\"created_at\" > $2))"
    s%"DELETE FROM \"table\" WHERE ((\"id\" = :arg_1) AND (\"created_at\" > :arg_2))"
    [(.int .int 1), (.time 1511455647000000000 1)] := by decide +kernel

-- TestDelete_Returning / *
example : Renders (do return Stmt.delete (← DeleteStmt.Returning (← Verif.delete (.val (.str s%"table"))) [.expr (.raw s%"*")]))
    s%"DELETE FROM \"table\" RETURNING *"
    s%"DELETE FROM \"table\" RETURNING *"
    s%"DELETE FROM \"table\" RETURNING *"
    [] := by decide +kernel

-- TestDelete_Returning / id
example : Renders (do return Stmt.delete (← DeleteStmt.Returning (← Verif.delete (.val (.str s%"table"))) [.val (.str s%"id")]))
    s%"DELETE FROM \"table\" RETURNING \"id\""
    s%"DELETE FROM \"table\" RETURNING \"id\""
    s%"DELETE FROM \"table\" RETURNING \"id\""
    [] := by decide +kernel

-- TestSelect_NilCondition
example : Fails (do return Stmt.select (← SelectStmt.And (← SelectStmt.Where (← SelectStmt.From
    (← Verif.select [.val (.str s%"col")]) [.val (.str s%"table")])
    (← Ident.Equal (Ident.str s%"col") (.val (.str s%"value")))) .nil)) := by decide +kernel

example : Fails (do return Stmt.select (← SelectStmt.Where (← SelectStmt.From
    (← Verif.select [.val (.str s%"col")]) [.val (.str s%"table")]) .nil)) := by decide +kernel

-- TestToColumns
example : toColumns [.val (.str s%"foo"), .val (.str s%"bar")] =
    .ok [{ name := s%"foo" }, { name := s%"bar" }] := by decide +kernel
example : toColumns [.selExpr (.column { name := s%"foo" }), .val (.str s%"bar")] =
    .ok [{ name := s%"foo" }, { name := s%"bar" }] := by decide +kernel
example : toColumns [.val (.slice .string [.str s%"foo", .str s%"bar"])] =
    .ok [{ name := s%"foo" }, { name := s%"bar" }] := by decide +kernel
example : toColumns [.columns [{ name := s%"foo" }, { name := s%"bar" }]] =
    .ok [{ name := s%"foo" }, { name := s%"bar" }] := by decide +kernel
example : toColumns [.val (.str s%"foo, bar")] =
    .ok [{ name := s%"foo" }, { name := s%"bar" }] := by decide +kernel
example : toColumns [.val (.str s%"")] = Go.panic "loukoum: given column is undefined" := by
  decide +kernel
example : toColumns [.selExpr (.column { name := s%"" })] =
    Go.panic "loukoum: given column is undefined" := by decide +kernel
example : toColumns [.val (.slice .string [.str s%""])] =
    Go.panic "loukoum: given column is undefined" := by decide +kernel
example : toColumns [.columns [{ name := s%"" }]] =
    Go.panic "loukoum: given column is undefined" := by decide +kernel
example : toColumns [.val (.str s%",")] = Go.panic "loukoum: given column is undefined" := by
  decide +kernel

-- lexer/lexer_test.go TestNextToken
example : lexAll s%"" = [] := by decide +kernel
example : lexAll s%"\n\t\t\tSELECT * FROM foobar WHERE id = 2;\n\t\t" =
    [⟨Token.Select, s%"SELECT"⟩, ⟨Token.Asterisk, s%"*"⟩, ⟨Token.From, s%"FROM"⟩,
     ⟨Token.Literal, s%"foobar"⟩, ⟨Token.Where, s%"WHERE"⟩, ⟨Token.Literal, s%"id"⟩,
     ⟨Token.Equals, s%"="⟩, ⟨Token.Literal, s%"2"⟩, ⟨Token.Semicolon, s%";"⟩] := by decide +kernel
example : lexAll s%"SELECT a,b,c FROM foobar;" =
    [⟨Token.Select, s%"SELECT"⟩, ⟨Token.Literal, s%"a"⟩, ⟨Token.Comma, s%","⟩,
     ⟨Token.Literal, s%"b"⟩, ⟨Token.Comma, s%","⟩, ⟨Token.Literal, s%"c"⟩, ⟨Token.From, s%"FROM"⟩,
     ⟨Token.Literal, s%"foobar"⟩, ⟨Token.Semicolon, s%";"⟩] := by decide +kernel
example : lexAll s%"SELECT a, b, c FROM foobar" =
    [⟨Token.Select, s%"SELECT"⟩, ⟨Token.Literal, s%"a"⟩, ⟨Token.Comma, s%","⟩,
     ⟨Token.Literal, s%"b"⟩, ⟨Token.Comma, s%","⟩, ⟨Token.Literal, s%"c"⟩, ⟨Token.From, s%"FROM"⟩,
     ⟨Token.Literal, s%"foobar"⟩] := by decide +kernel
example : lexAll s%"INNER JOIN test2 ON test2.id = test.fk_id" =
    [⟨Token.Inner, s%"INNER"⟩, ⟨Token.Join, s%"JOIN"⟩, ⟨Token.Literal, s%"test2"⟩,
     ⟨Token.On, s%"ON"⟩, ⟨Token.Literal, s%"test2.id"⟩, ⟨Token.Equals, s%"="⟩,
     ⟨Token.Literal, s%"test.fk_id"⟩] := by decide +kernel
example : lexAll s%"DELETE FROM test2 WHERE id = 5" =
    [⟨Token.Delete, s%"DELETE"⟩, ⟨Token.From, s%"FROM"⟩, ⟨Token.Literal, s%"test2"⟩,
     ⟨Token.Where, s%"WHERE"⟩, ⟨Token.Literal, s%"id"⟩, ⟨Token.Equals, s%"="⟩,
     ⟨Token.Literal, s%"5"⟩] := by decide +kernel

-- parser/join_test.go TestParseJoin
example : joined s%"LEFT JOIN project ON user.id = project.user_id" =
    some (Types.LeftJoin, s%"project", .ok s%"\"user\".\"id\" = \"project\".\"user_id\"") := by
  decide +kernel
example : joined s%"INNER JOIN account ON (project.account_id = account.id)" =
    some (Types.InnerJoin, s%"account", .ok s%"\"project\".\"account_id\" = \"account\".\"id\"") := by
  decide +kernel
example : joined s%"RIGHT JOIN foobar ON foobar.group_id = test.group_id;" =
    some (Types.RightJoin, s%"foobar", .ok s%"\"foobar\".\"group_id\" = \"test\".\"group_id\"") := by
  decide +kernel
example : joined s%"ON user.id = project.user_id" =
    some (Types.InnerJoin, [], .ok s%"\"user\".\"id\" = \"project\".\"user_id\"") := by decide +kernel
example : joined s%"user.id = project.user_id" =
    some (Types.InnerJoin, [], .ok s%"\"user\".\"id\" = \"project\".\"user_id\"") := by decide +kernel
example : joined s%"ON user.id = project.user_id AND user.hash = project.hash" =
    some (Types.InnerJoin, [],
      .ok s%"(\"user\".\"id\" = \"project\".\"user_id\" AND \"user\".\"hash\" = \"project\".\"hash\")") := by
  decide +kernel
example : joined s%"ON user.id = project.user_id OR user.hash = project.hash" =
    some (Types.InnerJoin, [],
      .ok s%"(\"user\".\"id\" = \"project\".\"user_id\" OR \"user\".\"hash\" = \"project\".\"hash\")") := by
  decide +kernel
example : joined s%"ON u.id = p.uid AND u.h = p.h OR u.g = p.g" =
    some (Types.InnerJoin, [],
      .ok s%"((\"u\".\"id\" = \"p\".\"uid\" AND \"u\".\"h\" = \"p\".\"h\") OR \"u\".\"g\" = \"p\".\"g\")") := by
  decide +kernel
example : (match parseJoin s%"INNER JOIN account ON (project.account_id = *)" with
    | .ok none => true
    | _ => false) = true := by decide +kernel

end Verif.Tests
