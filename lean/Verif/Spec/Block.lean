import Verif.Spec.Calls
import Verif.Spec.Cursor
import Verif.Spec.LineRange
/-!
# Indenting and outdenting lines

What an editor does to many lines at once, and what should come out, in terms of strings.
-/
namespace Scribe.Spec
open Buf (Cmd)

/-- Puts `s` before each of these lines, one after the other. -/
def indentCalls (s : Text) (ls : List Nat) : List Cmd := ls.flatMap fun l => [.move (.to ⟨l, 0⟩), .insert s]

/-- Removes the first `n` clusters of each of these lines. -/
def outdentCalls (n : Nat) (ls : List Nat) : List Cmd := ls.map fun l => .deleteRange ⟨l, 0⟩ ⟨l, n⟩

/-- As one step. -/
def asGroup (cs : List Cmd) : List Cmd := .startGroup :: cs ++ [.endGroup]

/-- Every line with `s` before it, once for every time it is named. -/
def indented (s : Text) (ls : List Nat) (t : Text) : Text := unlines ((splitNl t).mapIdx fun i l => (List.replicate (ls.count i) s).flatten ++ l)

/-- Every line without its first `n` clusters, once for every time it is named. -/
def outdented (segs : Text → List Text) (n : Nat) (ls : List Nat) (t : Text) : Text :=
  unlines ((splitNl t).mapIdx fun i l => ((segs l).drop (n * ls.count i)).flatten)

end Scribe.Spec
