import Verif.Model.Builder
import Verif.Model.Runtime

/-!
# Concrete statements used to show that hypotheses of theorems can be met
-/

namespace Verif.Sample

/-- `SELECT "id" FROM "groups" WHERE ("active" = true)` -/
def groups : SelectStmt :=
  { SelectStmt.zero with
    exprs := [.column { name := s%"id" }]
    tables := [.table { name := s%"groups" }]
    whr := .infx (.ident (.str s%"active")) (.comparison s%"=") (.value (.bool true)) }

/-- A SELECT over two tables with a nil value, a sub-select and an ordering. -/
def users : SelectStmt :=
  { SelectStmt.zero with
    exprs := [.column { name := s%"id" }, .column { name := s%"name", alias := s%"n" }]
    tables := [.table { name := s%"users" }]
    joins := [{ type := s%"LEFT JOIN", table := { name := s%"teams" },
                cond := .onClause { name := s%"users.team" } { name := s%"teams.id" } }]
    whr :=
      .infx
        (.infx
          (.infx (.ident (.str s%"age")) (.comparison s%">") (.value (.int .int 18)))
          (.logical s%"AND")
          (.infx (.ident (.str s%"deleted")) (.comparison s%"IS") (.value .nil)))
        (.logical s%"AND")
        (.infx
          (.inx (.ident (.str s%"group")) s%"IN" (.array [.select groups]))
          (.logical s%"OR")
          (.infx (.ident (.str s%"name")) (.comparison s%"=") (.value (.str s%"o'neil"))))
    orderBy := [{ expression := s%"id", type := s%"DESC" }]
    limit := 10 }

attribute [local instance] Runtime.sample

/-- The first sample, built with the API. -/
example : (do
    let b ← select [.val (.str s%"id")]
    let b ← b.From [.val (.str s%"groups")]
    let c ← Ident.Equal (.str s%"active") (.val (.bool true))
    b.Where c) = .ok groups := by rfl

/-- The second sample, built with the API. -/
example : (do
    let b ← select [.val (.str s%"id"), .selExpr (.column { name := s%"name", alias := s%"n" })]
    let b ← b.From [.val (.str s%"users")]
    let b ← b.Join [.val (.str s%"LEFT JOIN teams ON users.team = teams.id")]
    let age ← Ident.GreaterThan (.str s%"age") (.val (.int .int 18))
    let b ← b.Where age
    let deleted ← Ident.IsNull (.str s%"deleted") true
    let b ← b.And deleted
    let group ← Ident.In (.str s%"group") [.selectB groups]
    let name ← Ident.Equal (.str s%"name") (.val (.str s%"o'neil"))
    let b ← b.And (plainOr group name)
    let b ← b.OrderBy [newOrder s%"id" [s%"DESC"]]
    b.Limit (.val (.int .int 10))) = .ok users := by rfl

/-- `INSERT` of two rows with a conflict clause. -/
def insertUsers : InsertStmt :=
  { into := { name := s%"users" }
    columns := [{ name := s%"email" }, { name := s%"age" }]
    values := .arrayList [.array [.value (.str s%"a@b"), .value (.int .int 1)],
                          .array [.value .nil, .value (.int .int 2)]]
    target := [{ name := s%"email" }]
    action := .update
      { mode := .associative, map := [({ name := s%"age" }, .value (.int .int 3))],
        columns := [{ name := s%"age" }], expressions := [] }
    returning := [.column { name := s%"id" }]
    comment := [] }

/-- `UPDATE` with two assignments, one of them a sub-select. -/
def updateUsers : UpdateStmt :=
  { withs := [], table := { name := s%"users" }, only := false, tables := []
    set :=
      { mode := .associative,
        map := [({ name := s%"b" }, .wrapper (.select groups)),
                ({ name := s%"a" }, .value (.str s%"x"))],
        columns := [{ name := s%"b" }, { name := s%"a" }], expressions := [] }
    whr := .infx (.ident (.str s%"id")) (.comparison s%"=") (.value (.int .int64 7))
    returning := [], comment := [] }

/-- `DELETE` with a condition. -/
def deleteUsers : DeleteStmt :=
  { tables := [.table { name := s%"users" }], usings := [],
    whr := .infx (.ident (.str s%"id")) (.comparison s%"=") (.value (.int .int64 7))
    returning := [], comment := s%"cleanup" }

end Verif.Sample
