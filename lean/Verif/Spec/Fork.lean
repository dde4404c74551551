import Verif.Spec.Heap

/-!
# Which builders share what a call writes
-/

namespace Verif

/-- `append` writes over elements of another slice: the slices are of the same array, which has
room, the other slice is longer, and it holds something else there. -/
def Store.Clobbers {α : Type} (st : Store α) (s : Slice) (xs : List α) (t : Slice) : Prop :=
  s.arr = t.arr ∧ s.len < t.len ∧ s.len + xs.length ≤ st.cap s ∧
    ((st.read t).drop s.len).take xs.length ≠ xs.take (t.len - s.len)

end Verif

namespace Verif.Spec

/-- The call changes another builder: it adds joins, orderings or common table expressions in
place, where the other builder holds something else. -/
def Changes (h : SelHeap) (r : SelRef) (c : SelCall) (q : SelRef) : Prop :=
  (∃ j s', c.clause = .joins ∧ c.apply (r.stmt h) = .ok s' ∧ s'.joins = (r.stmt h).joins ++ [j] ∧
    h.joins.Clobbers r.joins [j] q.joins) ∨
  (∃ qs, c = .with qs ∧ (r.stmt h).withs ≠ [] ∧ h.withs.Clobbers r.withs qs q.withs) ∨
  (∃ os, c = .orderBy os ∧ h.orders.Clobbers r.orders os q.orders)

/-- The columns that `OnConflict` is given before something else. -/
def namedTargets : List Any → List Column
  | .val (.str s) :: l => if trimSpace s = [] then [] else { name := trimSpace s } :: namedTargets l
  | .selExpr (.column c) :: l => if c.name = [] then [] else c :: namedTargets l
  | _ => []

end Verif.Spec
