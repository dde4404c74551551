import Verif.Model.Lexer
import Verif.Model.Ast

/-!
# `parser/join.go`.
-/

namespace Verif

/-- parser/join.go:27-143: the loops of `ParseJoin`. `inCond` says that control is in the
inner loop of lines 79-130, where the next AND/OR extends the condition; any other
token leaves that loop and is handled by the outer switch. The iterator is the list of the tokens
that are left (`Verif.Model.Transcript` has the code with its cursor, see `C41_transcript`). The two consecutive
`if`s of the inner loop (lines 81 and 106) take one connective each, so they amount
to one connective per step. Result: `.error` is a run-time panic
(`it.Next()` past the end, lexer/iteratee.go:28), `.ok none` is the returned
`ErrJoinInvalidCondition`, `.ok (some j)` the parsed join. -/
def parseLoop (inCond : Bool) (join : Join) : List Tok → Go (Option Join)
  | [] => .ok (some join)
  | e :: rest =>
    if inCond && (e.type = Token.And || e.type = Token.Or) then
      match rest with
      | [] => .ok none
      | l :: rest =>
        if l.type ≠ Token.Literal then .ok none
        else
          match rest with
          | [] => .error .index
          | eq :: rest =>
            if eq.type ≠ Token.Equals then .ok none
            else
              match rest with
              | [] => .ok none
              | r :: rest =>
                if r.type ≠ Token.Literal then .ok none
                else
                  let op := if e.type = Token.And then Types.And else Types.Or
                  parseLoop true
                    { join with
                      cond :=
                        .infx join.cond (.logical op)
                          (.onClause { name := l.value } { name := r.value }) }
                    rest
    else if e.type = Token.Join then parseLoop false join rest
    else if e.type = Token.Inner then
      match rest with
      | [] => .ok (some join)
      | j :: rest =>
        if j.type = Token.Join then parseLoop false { join with type := Types.InnerJoin } rest
        else .ok (some join)
    else if e.type = Token.Left then
      match rest with
      | [] => .ok (some join)
      | j :: rest =>
        if j.type = Token.Join then parseLoop false { join with type := Types.LeftJoin } rest
        else .ok (some join)
    else if e.type = Token.Right then
      match rest with
      | [] => .ok (some join)
      | j :: rest =>
        if j.type = Token.Join then parseLoop false { join with type := Types.RightJoin } rest
        else .ok (some join)
    else if e.type = Token.Literal then
      match rest with
      | [] => .ok (some join)
      | n :: rest =>
        if n.type = Token.On then parseLoop false { join with table := { name := e.value } } rest
        else if n.type = Token.Equals then
          match rest with
          | [] => .ok none
          | r :: rest =>
            if r.type ≠ Token.Literal then .ok none
            else
              parseLoop true
                { join with cond := .onClause { name := e.value } { name := r.value } } rest
        else .ok (some join)
    else if e.type = Token.On || e.type = Token.LParen || e.type = Token.RParen then
      parseLoop false join rest
    else .ok (some join)

/-- parser/join.go:19-144 `ParseJoin` -/
def parseJoin (subquery : Str) : Go (Option Join) :=
  parseLoop false { type := Types.InnerJoin, table := { name := [] }, cond := .nil }
    (lexAll subquery)

/-- parser/join.go:147-153 `MustParseJoin`. Simplification: the message of the panic also contains
the text (`errors.Wrapf` in `ParseJoin`). -/
def mustParseJoin (subquery : Str) : Go Join :=
  match parseJoin subquery with
  | .error p => .error p
  | .ok none => Go.panic "loukoum: join condition is invalid"
  | .ok (some j) => .ok j

end Verif
