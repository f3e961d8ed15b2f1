import Verif.Model.Token
/-!
# Debug output

`#[derive(Debug)]` of `Position` (src/buffer/position.rs:10), `Distance` (src/buffer/distance.rs:4), `Range` (src/buffer/range.rs:4), `LineRange`
(src/buffer/line_range.rs:4), `Token` and `Lexeme` (src/buffer/token/mod.rs:10 and 16). What the derived functions write is that of `core::fmt::builders`: `DebugStruct` and
`DebugTuple`, for `{:?}` and for `{:#?}`. In the second form core writes through a `PadAdapter` that puts four spaces after every newline; here every part knows how deep it is, which is
the same because strings are written without newlines. Width, fill and hexadecimal flags are not modelled.
-/
namespace Scribe.Debug

/-- The digits of a number, the last at the end: `usize` in decimal, code points in hexadecimal with small letters. -/
def digits (base n : Nat) : Text := if h : base ≤ 1 ∨ n < base then [n.digitChar] else digits base (n / base) ++ [(n % base).digitChar]
termination_by n
decreasing_by exact Nat.div_lt_self (by omega) (by omega)

/-- `char::escape_debug_ext` as `Debug` for `str` calls it; `plain` are the characters that `core` holds to be printable and that extend no cluster. -/
def escape (plain : Char → Bool) (c : Char) : Text :=
  if c = '\x00' then ['\\', '0']
  else if c = '\t' then ['\\', 't']
  else if c = '\r' then ['\\', 'r']
  else if c = '\n' then ['\\', 'n']
  else if c = '\\' then ['\\', '\\']
  else if c = '"' then ['\\', '"']
  else if plain c then [c]
  else ['\\', 'u', '{'] ++ digits 16 c.toNat ++ ['}']

/-- `Debug` for `str`. -/
def str (plain : Char → Bool) (s : Text) : Text := ['"'] ++ s.flatMap (escape plain) ++ ['"']

/-- `{:?}`, or `{:#?}` at a depth. -/
abbrev Form := Option Nat

def Form.inner (k : Form) : Form := k.map (· + 1)

def spaces (k : Nat) : Text := List.replicate (4 * k) ' '

/-- `DebugStruct::field`, before the name of the first field. -/
def openStruct : Form → Text
  | none => " { ".toList
  | some k => " {\n".toList ++ spaces (k + 1)

/-- Between fields. -/
def between : Form → Text
  | none => ", ".toList
  | some k => ",\n".toList ++ spaces (k + 1)

/-- `DebugStruct::finish`. -/
def closeStruct : Form → Text
  | none => " }".toList
  | some k => ",\n".toList ++ spaces k ++ ['}']

/-- `DebugTuple::field`, before the first one. -/
def openTuple : Form → Text
  | none => ['(']
  | some k => "(\n".toList ++ spaces (k + 1)

/-- `DebugTuple::finish`. -/
def closeTuple : Form → Text
  | none => [')']
  | some k => ",\n".toList ++ spaces k ++ [')']

/-- A struct with two fields whose values are written already. -/
def struct2 (k : Form) (name f1 : Text) (v1 : Text) (f2 : Text) (v2 : Text) : Text :=
  name ++ openStruct k ++ f1 ++ ": ".toList ++ v1 ++ between k ++ f2 ++ ": ".toList ++ v2 ++ closeStruct k

/-- src/buffer/position.rs:10-16. -/
def position (k : Form) (p : Position) : Text := struct2 k "Position".toList "line".toList (digits 10 p.line) "offset".toList (digits 10 p.offset)

/-- src/buffer/distance.rs:4-8. -/
def distance (k : Form) (d : Distance) : Text := struct2 k "Distance".toList "lines".toList (digits 10 d.lines) "offset".toList (digits 10 d.offset)

/-- src/buffer/range.rs:4-9; the fields are private, but printed. -/
def range (k : Form) (r : Range) : Text := struct2 k "Range".toList "start".toList (position k.inner r.start) "end".toList (position k.inner r.stop)

/-- src/buffer/line_range.rs:4-8. -/
def lineRange (k : Form) (r : LineRange) : Text := struct2 k "LineRange".toList "start".toList (digits 10 r.start) "end".toList (digits 10 r.stop)

/-- src/buffer/token/mod.rs:16-21; `scope` writes a `ScopeStack` of syntect. -/
def lexeme {K : Type} (plain : Char → Bool) (scope : Form → K → Text) (k : Form) (v : Text) (s : K) (p : Position) : Text :=
  "Lexeme".toList ++ openStruct k ++ "value: ".toList ++ str plain v ++ between k ++ "scope: ".toList ++ scope k.inner s ++ between k ++ "position: ".toList ++ position k.inner p ++
    closeStruct k

/-- src/buffer/token/mod.rs:10-14. -/
def token {K : Type} (plain : Char → Bool) (scope : Form → K → Text) (k : Form) : Token K → Text
  | .newline => "Newline".toList
  | .lexeme v s p => "Lexeme".toList ++ openTuple k ++ lexeme plain scope k.inner v s p ++ closeTuple k

end Scribe.Debug
