import Verif.Model.Api

/-!
# The programs of the directory examples

Each of them asks its builder for the query with `NamedQuery` (examples/named) or with `Query`
(examples/standard). The two directories contain the same programs, apart from this; the lines given
below are those of examples/named. What the programs do with the query and the rows is left out.
-/

namespace Verif.Examples

/-- examples/named/comment.go:10-18 `Comment`, without the times, which the programs do not use. -/
structure Comment where
  ID : Int
  Email : Str
  Status : Str
  Message : Str
  UserID : Int

/-- examples/named/user.go:10-17 `User`, without the time. -/
structure User where
  ID : Int
  FirstName : Str
  LastName : Str
  Email : Str
  IsStaff : Bool

/-- examples/named/news.go:10-15 `News`, without the times. -/
structure News where
  ID : Int
  Status : Str

/-- A string given as an argument. -/
private abbrev str (s : Str) : Any := .val (.str s)

/-- An int64 given as an argument. -/
private abbrev int (n : Int) : Any := .val (.int .int64 n)

/-- `lk.Condition("name")` -/
private abbrev cond (name : Str) : Ident := Api.Condition (str name)

/-- examples/named/comment.go:22-29 `FindComments` -/
def FindComments : Go Stmt := do
  let b ← select [str s%"comments.id", str s%"comments.email", str s%"comments.status",
    str s%"comments.user_id", str s%"comments.message", str s%"comments.created_at"]
  let b ← b.From [str s%"comments"]
  let b ← b.Join [.table (Api.Table s%"users"),
    .expr (Api.On s%"comments.user_id" s%"users.id")]
  let b ← b.Where (← (cond s%"comments.deleted_at").IsNull true)
  return .select b

/-- examples/named/comment.go:57-66 `FindStaffComments` -/
def FindStaffComments : Go Stmt := do
  let b ← select [str s%"id", str s%"email", str s%"status", str s%"user_id", str s%"message",
    str s%"created_at"]
  let b ← b.From [str s%"comments"]
  let b ← b.Where (← (cond s%"deleted_at").IsNull true)
  let staff ← select [str s%"id"]
  let staff ← staff.From [str s%"users"]
  let staff ← staff.Where (← (cond s%"is_staff").Equal (.val (.bool true)))
  let b ← b.Where (← (cond s%"user_id").In [.selectB staff])
  return .select b

/-- examples/named/comment.go:94-102 `CreateComment` -/
def CreateComment [GoRuntime] (comment : Comment) : Go Stmt := do
  let b ← insert (str s%"comments")
  let b ← b.Set
    [Api.Pair (str s%"email") (str comment.Email),
     Api.Pair (str s%"status") (str s%"waiting"),
     Api.Pair (str s%"message") (str comment.Message),
     Api.Pair (str s%"user_id") (int comment.UserID),
     Api.Pair (str s%"created_at") (.expr (Api.Raw s%"NOW()"))]
  let b ← b.Returning [str s%"id"]
  return .insert b

/-- examples/named/comment.go:130-145 `UpsertComment` -/
def UpsertComment [GoRuntime] (comment : Comment) : Go Stmt := do
  let b ← insert (str s%"comments")
  let b ← b.Set
    [Api.Pair (str s%"email") (str comment.Email),
     Api.Pair (str s%"status") (str s%"waiting"),
     Api.Pair (str s%"message") (str comment.Message),
     Api.Pair (str s%"user_id") (int comment.UserID),
     Api.Pair (str s%"created_at") (.expr (Api.Raw s%"NOW()"))]
  let b ← b.OnConflict [str s%"email", ← doUpdate
    [Api.Pair (str s%"message") (str comment.Message),
     Api.Pair (str s%"user_id") (int comment.UserID),
     Api.Pair (str s%"status") (str s%"waiting"),
     Api.Pair (str s%"created_at") (.expr (Api.Raw s%"NOW()")),
     Api.Pair (str s%"deleted_at") (.val .nil)]]
  let b ← b.Returning [str s%"id, created_at"]
  return .insert b

/-- examples/named/news.go:19-26 `PublishNews` -/
def PublishNews (news : News) : Go Stmt := do
  let b ← update (str s%"news")
  let b ← b.Set
    [Api.Pair (str s%"published_at") (.expr (Api.Raw s%"NOW()")),
     Api.Pair (str s%"status") (str s%"published")]
  let b ← b.Where (← (cond s%"id").Equal (int news.ID))
  let b ← b.And (← (cond s%"deleted_at").IsNull true)
  let b ← b.Returning [str s%"published_at"]
  return .update b

/-- examples/named/user.go:21-23 `FindUsers` -/
def FindUsers : Go Stmt := do
  let b ← select [str s%"id", str s%"first_name", str s%"last_name", str s%"email"]
  let b ← b.From [str s%"users"]
  let b ← b.Where (← (cond s%"deleted_at").IsNull true)
  return .select b

/-- examples/named/user.go:49-50 `DeleteUser` -/
def DeleteUser (user : User) : Go Stmt := do
  let b ← delete (str s%"users")
  let b ← b.Where (← (cond s%"id").Equal (int user.ID))
  return .delete b

/-- README.md:62-69 `CreateComment`, which does not set `user_id`. -/
def ReadmeCreateComment [GoRuntime] (comment : Comment) : Go Stmt := do
  let b ← insert (str s%"comments")
  let b ← b.Set
    [Api.Pair (str s%"email") (str comment.Email),
     Api.Pair (str s%"status") (str s%"waiting"),
     Api.Pair (str s%"message") (str comment.Message),
     Api.Pair (str s%"created_at") (.expr (Api.Raw s%"NOW()"))]
  let b ← b.Returning [str s%"id"]
  return .insert b

end Verif.Examples
