import Verif.Props.Portable
import Verif.Model.Examples
import Verif.Spec.Examples
import Lean.Elab.Tactic.Basic
import Lean.Meta.Tactic.Refl

/-!
# C74: the examples produce the queries documented beside them
-/

namespace Verif.Props
open Spec Examples

/-- `rfl`, checked by the kernel only. -/
local elab "kernel_rfl" : tactic =>
  Lean.Elab.Tactic.liftMetaTactic fun g => do
    g.refl (check := false)
    return []

/-- The program runs; `Query` gives the documented text and these arguments, and `NamedQuery` its
documented text and the same arguments by name. -/
def Documented [GoRuntime] (program : Go Stmt) (query named : Str) (args : List Val) : Prop :=
  ∃ s, program = .ok s ∧
    (∃ t, s.write.query = .ok (t, args) ∧ SameButQuotes t query) ∧
    (∃ t m, s.write.namedQuery = .ok (t, m) ∧ SameButQuotes t named ∧ m.getD [] = numbered 1 args)

/-- What holds with one version of Go holds with every one. -/
private theorem documented_of {program : Go Stmt} {s : Stmt} {query named : Str} {args : List Val}
    (t u : Str) (names : List Str) (cols : List Column) (m : Option (List (Str × Val)))
    (r : GoRuntime) (hp : program = .ok s)
    (hc : assignedColumns s = cols) (hn : namesOf (@layout Runtime.sample s) = names)
    (hq : (@Stmt.write Runtime.sample s).query = .ok (t, args))
    (hu : (@Stmt.write Runtime.sample s).namedQuery = .ok (u, m))
    (hm : m.getD [] = numbered 1 args)
    (h : Agree cols ∧ (∀ n ∈ names, Ascii n) ∧ SameButQuotes t query ∧ SameButQuotes u named) :
    @Documented r program query named args := by
  subst hc hn
  have h' := C73_partial Runtime.sample r s h.1 fun n hn => portable_ascii _ r (h.2.1 n hn)
  exact ⟨s, hp, ⟨t, (h'.1 _).1 hq, h.2.2.1⟩, ⟨u, m, (h'.2.1 _).1 hu, h.2.2.2, hm⟩⟩

/-- examples/named/user.go:25 and examples/standard/user.go:26 -/
theorem C74_FindUsers [r : GoRuntime] : Documented FindUsers
    s%"SELECT id, first_name, last_name, email FROM users WHERE (deleted_at IS NULL)"
    s%"SELECT id, first_name, last_name, email FROM users WHERE (deleted_at IS NULL)"
    [] := by
  refine documented_of
    s%"SELECT \"id\", \"first_name\", \"last_name\", \"email\" FROM \"users\" WHERE (\"deleted_at\" IS NULL)"
    s%"SELECT \"id\", \"first_name\", \"last_name\", \"email\" FROM \"users\" WHERE (\"deleted_at\" IS NULL)"
    [s%"id", s%"first_name", s%"last_name", s%"email", s%"users", s%"deleted_at"]
    [] (none) r rfl rfl rfl (by kernel_rfl) (by kernel_rfl) rfl (by decide +kernel)

set_option maxRecDepth 4000 in
/-- examples/named/comment.go:31-33 and examples/standard/comment.go:32-34 -/
theorem C74_FindComments [r : GoRuntime] : Documented FindComments
    s%"SELECT comments.id, comments.email, comments.status, comments.user_id, comments.message, comments.created_at FROM comments INNER JOIN users ON comments.user_id = users.id WHERE (comments.deleted_at IS NULL)"
    s%"SELECT comments.id, comments.email, comments.status, comments.user_id, comments.message, comments.created_at FROM comments INNER JOIN users ON comments.user_id = users.id WHERE (comments.deleted_at IS NULL)"
    [] := by
  refine documented_of
    s%"SELECT \"comments\".\"id\", \"comments\".\"email\", \"comments\".\"status\", \"comments\".\"user_id\", \"comments\".\"message\", \"comments\".\"created_at\" FROM \"comments\" INNER JOIN \"users\" ON \"comments\".\"user_id\" = \"users\".\"id\" WHERE (\"comments\".\"deleted_at\" IS NULL)"
    s%"SELECT \"comments\".\"id\", \"comments\".\"email\", \"comments\".\"status\", \"comments\".\"user_id\", \"comments\".\"message\", \"comments\".\"created_at\" FROM \"comments\" INNER JOIN \"users\" ON \"comments\".\"user_id\" = \"users\".\"id\" WHERE (\"comments\".\"deleted_at\" IS NULL)"
    [s%"comments.id", s%"comments.email", s%"comments.status", s%"comments.user_id", s%"comments.message", s%"comments.created_at", s%"comments", s%"users", s%"comments.user_id", s%"users.id", s%"comments.deleted_at"]
    [] (none) r rfl rfl rfl (by kernel_rfl) (by kernel_rfl) rfl (by decide +kernel)

/-- examples/named/comment.go:68-73 and examples/standard/comment.go:81-86 -/
theorem C74_FindStaffComments [r : GoRuntime] : Documented FindStaffComments
    s%"SELECT id, email, status, user_id, message, created_at FROM comments WHERE ((deleted_at IS NULL) AND (user_id IN (SELECT id FROM users WHERE (is_staff = $1))))"
    s%"SELECT id, email, status, user_id, message, created_at FROM comments WHERE ((deleted_at IS NULL) AND (user_id IN (SELECT id FROM users WHERE (is_staff = :arg_1))))"
    [.bool true] := by
  refine documented_of
    s%"SELECT \"id\", \"email\", \"status\", \"user_id\", \"message\", \"created_at\" FROM \"comments\" WHERE ((\"deleted_at\" IS NULL) AND (\"user_id\" IN (SELECT \"id\" FROM \"users\" WHERE (\"is_staff\" = $1))))"
    s%"SELECT \"id\", \"email\", \"status\", \"user_id\", \"message\", \"created_at\" FROM \"comments\" WHERE ((\"deleted_at\" IS NULL) AND (\"user_id\" IN (SELECT \"id\" FROM \"users\" WHERE (\"is_staff\" = :arg_1))))"
    [s%"id", s%"email", s%"status", s%"user_id", s%"message", s%"created_at", s%"comments", s%"deleted_at", s%"user_id", s%"id", s%"users", s%"is_staff"]
    [] (some [(s%"arg_1", .bool true)]) r rfl rfl rfl (by kernel_rfl) (by kernel_rfl) rfl (by decide +kernel)

/-- examples/named/user.go:52-55 and examples/standard/user.go:62-65 -/
theorem C74_DeleteUser [r : GoRuntime] (user : User) : Documented (DeleteUser user)
    s%"DELETE FROM users WHERE (id = $1)"
    s%"DELETE FROM users WHERE (id = :arg_1)"
    [.int .int64 user.ID] := by
  refine documented_of
    s%"DELETE FROM \"users\" WHERE (\"id\" = $1)"
    s%"DELETE FROM \"users\" WHERE (\"id\" = :arg_1)"
    [s%"users", s%"id"]
    [] (some [(s%"arg_1", .int .int64 user.ID)]) r rfl rfl rfl (by kernel_rfl) (by kernel_rfl) rfl (by decide +kernel)

/-- examples/named/news.go:28-33 and examples/standard/news.go:29-34 -/
theorem C74_PublishNews [r : GoRuntime] (news : News) : Documented (PublishNews news)
    s%"UPDATE news SET published_at = NOW(), status = $1 WHERE ((id = $2) AND (deleted_at IS NULL)) RETURNING published_at"
    s%"UPDATE news SET published_at = NOW(), status = :arg_1 WHERE ((id = :arg_2) AND (deleted_at IS NULL)) RETURNING published_at"
    [.str s%"published", .int .int64 news.ID] := by
  refine documented_of
    s%"UPDATE \"news\" SET \"published_at\" = NOW(), \"status\" = $1 WHERE ((\"id\" = $2) AND (\"deleted_at\" IS NULL)) RETURNING \"published_at\""
    s%"UPDATE \"news\" SET \"published_at\" = NOW(), \"status\" = :arg_1 WHERE ((\"id\" = :arg_2) AND (\"deleted_at\" IS NULL)) RETURNING \"published_at\""
    [s%"news", s%"published_at", s%"status", s%"id", s%"deleted_at", s%"published_at"]
    [⟨s%"published_at", []⟩, ⟨s%"status", []⟩] (some [(s%"arg_1", .str s%"published"), (s%"arg_2", .int .int64 news.ID)]) r rfl rfl rfl (by kernel_rfl) (by kernel_rfl) rfl (by decide +kernel)

/-- `Set` does the same with every version. -/
private theorem set_same (r : GoRuntime) {args : List Any} {cols : List Column}
    (h : (InsCall.set args).setColumns = cols ∧ Agree cols) (b : InsertStmt) :
    @InsertStmt.Set r b args = @InsertStmt.Set Runtime.sample b args :=
  portable_call r Runtime.sample (c := .set args) (h.1 ▸ h.2) b

private theorem setColumns_comment (comment : Comment) : (InsCall.set
    [Api.Pair (.val (.str s%"email")) (.val (.str comment.Email)),
     Api.Pair (.val (.str s%"status")) (.val (.str s%"waiting")),
     Api.Pair (.val (.str s%"message")) (.val (.str comment.Message)),
     Api.Pair (.val (.str s%"user_id")) (.val (.int .int64 comment.UserID)),
     Api.Pair (.val (.str s%"created_at")) (.expr (Api.Raw s%"NOW()"))]).setColumns =
      [⟨s%"email", []⟩, ⟨s%"status", []⟩, ⟨s%"message", []⟩, ⟨s%"user_id", []⟩,
        ⟨s%"created_at", []⟩] ∧
    Agree [⟨s%"email", []⟩, ⟨s%"status", []⟩, ⟨s%"message", []⟩, ⟨s%"user_id", []⟩,
      ⟨s%"created_at", []⟩] := ⟨by kernel_rfl, by decide +kernel⟩

/-- examples/named/comment.go:104-111 and examples/standard/comment.go:129-136 -/
theorem C74_CreateComment [r : GoRuntime] (comment : Comment) : Documented (CreateComment comment)
    s%"INSERT INTO comments (created_at, email, message, status, user_id) VALUES (NOW(), $1, $2, $3, $4) RETURNING id"
    s%"INSERT INTO comments (created_at, email, message, status, user_id) VALUES (NOW(), :arg_1, :arg_2, :arg_3, :arg_4) RETURNING id"
    [.str comment.Email, .str comment.Message, .str s%"waiting", .int .int64 comment.UserID] := by
  have e : CreateComment comment = @CreateComment Runtime.sample comment := by
    unfold CreateComment
    simp only [set_same r (setColumns_comment comment)]
  rw [e]
  exact documented_of
    s%"INSERT INTO \"comments\" (\"created_at\", \"email\", \"message\", \"status\", \"user_id\") VALUES (NOW(), $1, $2, $3, $4) RETURNING \"id\""
    s%"INSERT INTO \"comments\" (\"created_at\", \"email\", \"message\", \"status\", \"user_id\") VALUES (NOW(), :arg_1, :arg_2, :arg_3, :arg_4) RETURNING \"id\""
    [s%"comments", s%"created_at", s%"email", s%"message", s%"status", s%"user_id", s%"id"]
    []
    (some [(s%"arg_1", .str comment.Email), (s%"arg_2", .str comment.Message), (s%"arg_3", .str s%"waiting"), (s%"arg_4", .int .int64 comment.UserID)]) r rfl rfl (by kernel_rfl) (by kernel_rfl) (by kernel_rfl) rfl (by decide +kernel)

/-- examples/named/comment.go:147-159 and examples/standard/comment.go:175-186 -/
theorem C74_UpsertComment [r : GoRuntime] (comment : Comment) : Documented (UpsertComment comment)
    s%"INSERT INTO comments (created_at, email, message, status, user_id) VALUES (NOW(), $1, $2, $3, $4) ON CONFLICT (email) DO UPDATE SET created_at = NOW(), deleted_at = NULL, message = $5, status = $6, user_id = $7 RETURNING id, created_at"
    s%"INSERT INTO comments (created_at, email, message, status, user_id) VALUES (NOW(), :arg_1, :arg_2, :arg_3, :arg_4) ON CONFLICT (email) DO UPDATE SET created_at = NOW(), deleted_at = NULL, message = :arg_5, status = :arg_6, user_id = :arg_7 RETURNING id, created_at"
    [.str comment.Email, .str comment.Message, .str s%"waiting", .int .int64 comment.UserID, .str comment.Message, .str s%"waiting", .int .int64 comment.UserID] := by
  have e : UpsertComment comment = @UpsertComment Runtime.sample comment := by
    unfold UpsertComment
    simp only [set_same r (setColumns_comment comment)]
  rw [e]
  exact documented_of
    s%"INSERT INTO \"comments\" (\"created_at\", \"email\", \"message\", \"status\", \"user_id\") VALUES (NOW(), $1, $2, $3, $4) ON CONFLICT (\"email\") DO UPDATE SET \"created_at\" = NOW(), \"deleted_at\" = NULL, \"message\" = $5, \"status\" = $6, \"user_id\" = $7 RETURNING \"id\", \"created_at\""
    s%"INSERT INTO \"comments\" (\"created_at\", \"email\", \"message\", \"status\", \"user_id\") VALUES (NOW(), :arg_1, :arg_2, :arg_3, :arg_4) ON CONFLICT (\"email\") DO UPDATE SET \"created_at\" = NOW(), \"deleted_at\" = NULL, \"message\" = :arg_5, \"status\" = :arg_6, \"user_id\" = :arg_7 RETURNING \"id\", \"created_at\""
    [s%"comments", s%"created_at", s%"email", s%"message", s%"status", s%"user_id", s%"email", s%"created_at", s%"deleted_at", s%"message", s%"status", s%"user_id", s%"id", s%"created_at"]
    [⟨s%"message", []⟩, ⟨s%"user_id", []⟩, ⟨s%"status", []⟩, ⟨s%"created_at", []⟩, ⟨s%"deleted_at", []⟩]
    (some [(s%"arg_1", .str comment.Email), (s%"arg_2", .str comment.Message), (s%"arg_3", .str s%"waiting"), (s%"arg_4", .int .int64 comment.UserID), (s%"arg_5", .str comment.Message), (s%"arg_6", .str s%"waiting"), (s%"arg_7", .int .int64 comment.UserID)]) r rfl rfl (by kernel_rfl) (by kernel_rfl) (by kernel_rfl) rfl (by decide +kernel)

/-- The comment at README.md:71-78 is wrong: the program there does not set `user_id`, whatever the comment,
so that neither the documented text nor the number of arguments is right. -/
theorem C74_readme (comment : Comment) : ∃ s, ∃ t, ∃ args,
    @ReadmeCreateComment Runtime.sample comment = .ok s ∧
    (@Stmt.write Runtime.sample s).query = .ok (t, args) ∧ args.length = 3 ∧
    ¬ SameButQuotes t
      s%"INSERT INTO comments (created_at, email, message, status, user_id) VALUES (NOW(), $1, $2, $3, $4) RETURNING id" :=
  ⟨_, s%"INSERT INTO \"comments\" (\"created_at\", \"email\", \"message\", \"status\") VALUES (NOW(), $1, $2, $3) RETURNING \"id\"",
    [.str comment.Email, .str comment.Message, .str s%"waiting"], rfl, by kernel_rfl, rfl,
    by decide +kernel⟩

end Verif.Props
