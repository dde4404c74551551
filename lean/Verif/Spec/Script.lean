import Verif.Spec.Machine

/-!
# Programs of all kinds

A program: one of `Select`, `Insert`, `Update` and `Delete`, and the method calls after it.
-/

namespace Verif.Spec

/-- A program. -/
inductive Script where
  | select (items : List SqlItem) (steps : List SelStep)
  | insert (into : SqlTable) (steps : List InsStep)
  | update (table : SqlTable) (steps : List UpdStep)
  | delete («from» : SqlTable) (steps : List DelStep)

/-- The arguments can be written; `Distinct` and `DistinctOn` are not both called, and `ONLY` is
asked for with `Only`. -/
def Script.fits : Script → Bool
  | .select items steps =>
    fitsItems items && !items.isEmpty && steps.all SelStep.fits && oneDistinct steps
  | .insert t steps => fitsTable t && steps.all InsStep.fits
  | .update t steps => fitsTable t && !t.only && steps.all UpdStep.fits
  | .delete t steps => fitsFrom t && steps.all DelStep.fits

/-- The program, run with loukoum. -/
def Script.run [GoRuntime] : Script → Go Stmt
  | .select items steps => do .ok (.select (← selectOf items >>= runAll SelStep.apply steps))
  | .insert t steps => do
    .ok (.insert (← Verif.insert (.table (buildTable t)) >>= runAll InsStep.apply steps))
  | .update t steps => do
    .ok (.update (← Verif.update (.table (buildTable t)) >>= runAll UpdStep.apply steps))
  | .delete t steps => do
    .ok (.delete (← Verif.delete (buildFrom t) >>= runAll DelStep.apply steps))

/-- The SQL statement that the program describes; `none` if a call is refused, or if an UPDATE is
left with nothing to set. -/
def Script.describes : Script → Option SqlStmt
  | .select items steps => (runSteps SelStep.on steps (selectStart items)).map .select
  | .insert t steps => (runSteps InsStep.on steps (insertStart t)).map SqlInsert.stmt
  | .update t steps => (runSteps UpdStep.on steps (updateStart t)).bind SqlUpdate.stmt
  | .delete t steps => (runSteps DelStep.on steps (deleteStart t)).map SqlDelete.stmt

end Verif.Spec
