import Verif.Oracle.Exact
import Verif.Spec.PathStr
/-! # Executable forms of C109 -/
namespace Scribe.Oracle
open Spec PathStr

def o_C109_meaning (s : Bytes) : Bool := decide (components s = meaning s)

def o_C109_file_name (s : Bytes) : Bool := decide (PathStr.fileName s = lastName s) && decide (PathStr.fileName s = Path.fileName (components s))

def o_C109_same (a b : Bytes) : Bool :=
  decide (components (a ++ 47 :: 47 :: b) = components (a ++ 47 :: b)) && decide (components (a ++ 47 :: 46 :: 47 :: b) = components (a ++ 47 :: b)) &&
  (a.isEmpty || (decide (components (a ++ [47]) = components a) && decide (components (a ++ [47, 46]) = components a)))

def o_C109_strip (s w : Bytes) : Bool :=
  decide ((PathStr.stripPrefix s w).map components = Path.stripPrefix (components s) (components w)) &&
  match PathStr.stripPrefix s w with
  | none => true
  | some r => decide (components s = components w ++ components r)

def o_C109_trimmed (s w : Bytes) : Bool :=
  decide (components w = []) ||
  match PathStr.stripPrefix s w with
  | none => true
  | some r => (List.range (s.length + 1)).any (fun i => decide ((s.drop i).take r.length = r)) &&
    (decide (r = []) || match (pieces r).head?, (pieces r).getLast? with
      | some c, some d => decide (c ≠ []) && decide (c ≠ [46]) && decide (d ≠ []) && decide (d ≠ [46])
      | _, _ => false)

def isName (n : Bytes) : Bool := decide (n ≠ []) && decide (n ≠ [46]) && decide (n ≠ [46, 46]) && decide (47 ∉ n)

def o_C109_canonical (ws ns : List Bytes) : Bool :=
  !(ws.all isName && ns.all isName) ||
    decide (components (absolute ns) = .root :: ns.map .normal) &&
    decide (PathStr.stripPrefix (absolute ns) (absolute ws) = if ns.take ws.length = ws then some (joined (ns.drop ws.length)) else none)

end Scribe.Oracle
