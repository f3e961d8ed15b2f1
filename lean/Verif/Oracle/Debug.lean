import Verif.Oracle.Basic
import Verif.Model.Debug
/-! # Executable forms of C114 -/
namespace Scribe.Oracle
open Debug

def o_C114_format (p : Position) (d : Distance) (r : Range) (l : LineRange) : Bool :=
  decide (Debug.position none p = "Position { line: ".toList ++ (toString p.line).toList ++ ", offset: ".toList ++ (toString p.offset).toList ++ " }".toList) &&
  decide (Debug.distance none d = "Distance { lines: ".toList ++ (toString d.lines).toList ++ ", offset: ".toList ++ (toString d.offset).toList ++ " }".toList) &&
  decide (Debug.range none r = "Range { start: ".toList ++ Debug.position none r.start ++ ", end: ".toList ++ Debug.position none r.stop ++ " }".toList) &&
  decide (Debug.lineRange none l = "LineRange { start: ".toList ++ (toString l.start).toList ++ ", end: ".toList ++ (toString l.stop).toList ++ " }".toList)

/-- No output is the beginning of another one. -/
def readB {α : Type} [DecidableEq α] (f : α → Text) (x y : α) : Bool := imp ((f x).isPrefixOf (f y) = true) (decide (x = y))

def scopeB (_ : Form) (n : Nat) : Text := ['<'] ++ digits 10 n ++ ['>']

def o_C114_readable (plain : Char → Bool) (k : Form) (p p' : Position) (x y : Token Nat) : Bool :=
  readB (Debug.position k) p p' && readB (Debug.distance k) ⟨p.line, p.offset⟩ ⟨p'.line, p'.offset⟩ && readB (Debug.range k) ⟨p, p'⟩ ⟨p', p⟩ && readB (Debug.range k) ⟨p, p⟩ ⟨p, p'⟩ &&
    readB (Debug.lineRange k) ⟨p.line, p.offset⟩ ⟨p'.line, p'.offset⟩ && readB (Debug.token plain scopeB k) x y

def o_C114_one_line (plain : Char → Bool) (x : Token Nat) : Bool := !(Debug.token plain scopeB none x).contains '\n'

end Scribe.Oracle
