import Verif.Spec.Grapheme
/-! # Executable form of C77, and samples -/
namespace Scribe.Oracle.Grapheme
open Uax29 Spec.Grapheme

/-- The places at which a list of pieces is cut. -/
def cuts : List Text → List Nat
  | [] => [0]
  | p :: ps => 0 :: (cuts ps).map (p.length + ·)

def o_C77_rules (cls : Char → Cls) (t : Text) : Bool :=
  decide ((segs cls t).flatten = t) && (List.range (t.length + 1)).all fun i => (cuts (segs cls t)).contains i == boundary cls t i

/-- A table with letters for classes. -/
def letters (c : Char) : Cls :=
  match c with
  | '\r' => .cr | '\n' => .lf | 'c' => .control | 'e' => .extend | 'E' => .extendNone | 'k' => .linker | 'z' => .zwj | 'r' => .ri | 'p' => .prepend
  | 's' => .spacing | 'l' => .l | 'v' => .v | 't' => .t | 'x' => .lv | 'y' => .lvt | 'P' => .pict | 'C' => .consonant | _ => .other

/-- All texts of some length over some letters. -/
def texts (cs : List Char) : Nat → List Text
  | 0 => [[]]
  | n + 1 => (texts cs n).flatMap fun t => cs.map (· :: t)

def report : List (String × Bool) := [
  ("C77_rules", (texts "\r\nceEkzrpslvtxyPCo".toList 3).all (o_C77_rules letters) && (texts "eEkzrPCps".toList 4).all (o_C77_rules letters) && (texts "eEkzrPCp".toList 5).all (o_C77_rules letters) &&
    (texts "ekC".toList 7).all (o_C77_rules letters))]

end Scribe.Oracle.Grapheme
