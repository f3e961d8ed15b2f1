import Verif.Model.PathStr
/-! # Paths as strings -/
namespace Scribe.Spec

/-- What stands between the slashes. -/
def pieces : Bytes → List Bytes
  | [] => [[]]
  | b :: s =>
    if b = 47 then [] :: pieces s
    else
      match pieces s with
      | p :: ps => (b :: p) :: ps
      | [] => [[b]]

/-- Pieces that count: nothing, and a dot, do not. -/
def steps (s : Bytes) : List Bytes := (pieces s).filter fun p => p ≠ [] && p ≠ [46]

/-- Where a path begins: at the root, at the current directory if the first piece is a dot, or nowhere in particular. -/
def origin (s : Bytes) : Path :=
  if (pieces s).length > 1 ∧ (pieces s).head? = some [] then [.root] else if (pieces s).head? = some [46] then [.cur] else []

/-- Two dots are the parent, all else is a name. -/
def stepComp (p : Bytes) : Comp := if p = [46, 46] then .parent else .normal p

/-- What the string of a path means. -/
def meaning (s : Bytes) : Path := origin s ++ (steps s).map stepComp

/-- The last step, if it is a name. -/
def lastName (s : Bytes) : Option Bytes :=
  match (steps s).getLast? with
  | some n => if n = [46, 46] then none else some n
  | none => none

/-- Names with slashes in between. -/
def joined : List Bytes → Bytes
  | [] => []
  | [n] => n
  | n :: ns => n ++ 47 :: joined ns

/-- A canonical path. -/
def absolute (ns : List Bytes) : Bytes := 47 :: joined ns

/-- What can be the name of a file. -/
def IsName (n : Bytes) : Prop := n ≠ [] ∧ n ≠ [46] ∧ n ≠ [46, 46] ∧ 47 ∉ n

end Scribe.Spec
