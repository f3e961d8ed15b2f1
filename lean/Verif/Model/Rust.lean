/-!
# Pieces of the Rust runtime and standard library used by scribe

Strings (`String`, `&str`) are lists of Unicode scalar values (`Text`); `Vec<u8>` is a list of bytes.
A panic is an explicit error value: every function that can panic returns `R α`.

`usize` is `Nat`; subtraction is checked (`subU`), because an underflow panics in debug builds and
wraps in release builds (both are excluded by proving the check never fails). Additions are
unbounded here; overflow of additions is treated separately in `Verif/Model/Machine.lean`.
-/
namespace Scribe

/-- A Rust `str`/`String`: its sequence of Unicode scalar values. -/
abbrev Text := List Char
/-- A Rust `[u8]`/`Vec<u8>`. -/
abbrev Bytes := List UInt8

/-- Ways the modelled code can panic. (`overflow` and `capacity` occur only in `Verif/Model/Machine.lean`,
`borrow` only in `Verif/Model/Shared.lean`.) -/
inductive Panic where
  | slice | index | underflow | overflow | unwrap | capacity | borrow
  deriving DecidableEq, Repr

/-- Result of code that may panic. -/
abbrev R := Except Panic

/-- `&v[i..j]`: panics unless `i ≤ j ≤ len` (std slice indexing). -/
def slice {α : Type} (v : List α) (i j : Nat) : R (List α) :=
  if i ≤ j ∧ j ≤ v.length then .ok ((v.take j).drop i) else .error .slice

/-- `v[i]`: panics when out of range (std slice indexing). -/
def getAt {α : Type} (v : List α) (i : Nat) : R α :=
  match v[i]? with
  | some x => .ok x
  | none => .error .index

/-- `v[i] = x`: panics when out of range (std slice indexing). -/
def setAt {α : Type} (v : List α) (i : Nat) (x : α) : R (List α) :=
  if i < v.length then .ok (v.set i x) else .error .index

/-- `a - b` on `usize`: panics (debug) when `b > a`. -/
def subU (a b : Nat) : R Nat :=
  if b ≤ a then .ok (a - b) else .error .underflow

/-! ## UTF-8 -/

/-- `str::as_bytes`: the UTF-8 encoding (per character: Lean core's `String.utf8EncodeChar`). -/
def enc (t : Text) : Bytes := t.flatMap String.utf8EncodeChar

/-- `str::len`: the number of bytes of the UTF-8 encoding. -/
def blen (t : Text) : Nat := (enc t).length

/-- One step of the std UTF-8 decoder: a scalar value and its width, or the length of a maximal
invalid chunk. -/
inductive Dec where
  | char (c : Char) (width : Nat)
  | bad (width : Nat)
  deriving DecidableEq, Repr

/-- `safe_get(source, i)` of core/src/str/lossy.rs: the byte or 0. -/
def byteAt (bs : Bytes) (i : Nat) : Nat := (bs[i]?.getD 0).toNat

/-- Whether a byte value is a continuation byte (`b & 192 == 128`). -/
def isCont (b : Nat) : Bool := 0x80 ≤ b && b ≤ 0xBF

/-- The body of `Utf8Chunks::next` (Rust core/src/str/lossy.rs) for one leading byte `b`, `bs` being
the bytes after it. -/
def decode1 (b : Nat) (bs : Bytes) : Dec :=
  if b < 0x80 then .char (Char.ofNat b) 1
  else if 0xC2 ≤ b ∧ b ≤ 0xDF then
    let b1 := byteAt bs 0
    if isCont b1 then .char (Char.ofNat ((b - 0xC0) * 64 + (b1 - 0x80))) 2 else .bad 1
  else if 0xE0 ≤ b ∧ b ≤ 0xEF then
    let b1 := byteAt bs 0
    if (b = 0xE0 ∧ 0xA0 ≤ b1 ∧ b1 ≤ 0xBF) ∨ (0xE1 ≤ b ∧ b ≤ 0xEC ∧ 0x80 ≤ b1 ∧ b1 ≤ 0xBF) ∨
       (b = 0xED ∧ 0x80 ≤ b1 ∧ b1 ≤ 0x9F) ∨ (0xEE ≤ b ∧ b ≤ 0xEF ∧ 0x80 ≤ b1 ∧ b1 ≤ 0xBF) then
      let b2 := byteAt bs 1
      if isCont b2 then
        .char (Char.ofNat ((b - 0xE0) * 4096 + (b1 - 0x80) * 64 + (b2 - 0x80))) 3
      else .bad 2
    else .bad 1
  else if 0xF0 ≤ b ∧ b ≤ 0xF4 then
    let b1 := byteAt bs 0
    if (b = 0xF0 ∧ 0x90 ≤ b1 ∧ b1 ≤ 0xBF) ∨ (0xF1 ≤ b ∧ b ≤ 0xF3 ∧ 0x80 ≤ b1 ∧ b1 ≤ 0xBF) ∨
       (b = 0xF4 ∧ 0x80 ≤ b1 ∧ b1 ≤ 0x8F) then
      let b2 := byteAt bs 1
      if isCont b2 then
        let b3 := byteAt bs 2
        if isCont b3 then
          .char (Char.ofNat ((b - 0xF0) * 262144 + (b1 - 0x80) * 4096 + (b2 - 0x80) * 64
            + (b3 - 0x80))) 4
        else .bad 3
      else .bad 2
    else .bad 1
  else .bad 1

/-- Loop of `from_utf8_lossy`; the first argument is fuel (the number of bytes suffices). -/
def lossyGo : Nat → Bytes → Text
  | 0, _ => []
  | _ + 1, [] => []
  | n + 1, b :: bs =>
    match decode1 b.toNat bs with
    | .char c w => c :: lossyGo n (bs.drop (w - 1))
    | .bad w => '�' :: lossyGo n (bs.drop (w - 1))

/-- `String::from_utf8_lossy`: invalid chunks become U+FFFD. -/
def lossy (bs : Bytes) : Text := lossyGo bs.length bs

/-- Loop of the strict decoder; the first argument is fuel. -/
def strictGo : Nat → Bytes → Option Text
  | 0, [] => some []
  | 0, _ :: _ => none
  | _ + 1, [] => some []
  | n + 1, b :: bs =>
    match decode1 b.toNat bs with
    | .char c w => (strictGo n (bs.drop (w - 1))).map (c :: ·)
    | .bad _ => none

/-- `str::from_utf8(..).ok()`, as used by `fs::read_to_string`: `none` on invalid UTF-8. -/
def strict (bs : Bytes) : Option Text := strictGo bs.length bs

/-! ## `str` methods -/

/-- `str::split('\n')` collected: the pieces between newlines (never empty). -/
def splitNl : Text → List Text
  | [] => [[]]
  | c :: cs =>
    if c = '\n' then [] :: splitNl cs
    else match splitNl cs with
      | [] => [[c]]
      | l :: ls => (c :: l) :: ls

/-- `str::split_inclusive('\n')` collected: pieces with their newline, no trailing empty piece. -/
def splitInclusive : Text → List Text
  | [] => []
  | c :: cs =>
    if c = '\n' then [c] :: splitInclusive cs
    else match splitInclusive cs with
      | [] => [[c]]
      | l :: ls => (c :: l) :: ls

/-- `LinesMap` of std: strip one trailing newline and then one trailing carriage return. -/
def stripEol (l : Text) : Text :=
  if l.getLast? = some '\n' then
    let l' := l.dropLast
    if l'.getLast? = some '\r' then l'.dropLast else l'
  else l

/-- `str::lines` collected: `split_inclusive('\n').map(LinesMap)`. -/
def strLines (t : Text) : List Text := (splitInclusive t).map stripEol

/-- `s.chars().filter(|&c| c == '\n').count()`. -/
def countNl (t : Text) : Nat := (t.filter (· == '\n')).length

end Scribe
