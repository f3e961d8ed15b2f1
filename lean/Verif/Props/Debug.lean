import Verif.Proofs.Debug
import Verif.Props.Token
/-!
# C114: debug output
-/
namespace Scribe.Props
open Spec Debug
open TokenIter (Collects)

/-- **C114.** What `{:?}` writes, with `toString` of Lean for the numbers. -/
theorem C114_format (p : Position) (d : Distance) (r : Range) (l : LineRange) :
    position none p = "Position { line: ".toList ++ (toString p.line).toList ++ ", offset: ".toList ++ (toString p.offset).toList ++ " }".toList ∧
    distance none d = "Distance { lines: ".toList ++ (toString d.lines).toList ++ ", offset: ".toList ++ (toString d.offset).toList ++ " }".toList ∧
    range none r = "Range { start: ".toList ++ position none r.start ++ ", end: ".toList ++ position none r.stop ++ " }".toList ∧
    lineRange none l = "LineRange { start: ".toList ++ (toString l.start).toList ++ ", end: ".toList ++ (toString l.stop).toList ++ " }".toList := by
  simp only [position, distance, range, lineRange, struct2, digits_toString, openStruct, between, closeStruct, Form.inner, Option.map_none]
  refine ⟨?_, ?_, ?_, ?_⟩ <;> simp

/-- **C114.** In both forms and whatever follows it, the output tells the value and where it ends, for every choice of the characters that are not escaped; for tokens if the output of
the scopes does. -/
theorem C114_readable {K : Type} (plain : Char → Bool) (scope : Form → K → Text) (hs : ∀ k, Readable (scope k)) (k : Form) :
    Readable (position k) ∧ Readable (distance k) ∧ Readable (range k) ∧ Readable (lineRange k) ∧ Readable (token plain scope k) :=
  ⟨position_readable k, distance_readable k, range_readable k, lineRange_readable k, token_readable plain scope hs k⟩

theorem digits_no_newline (n : Nat) : '\n' ∉ digits 10 n := by
  intro h
  obtain ⟨k, hk, e⟩ := digits_mem (base := 10) (by omega) n _ h
  revert k; decide

theorem hex_no_newline (n : Nat) : '\n' ∉ digits 16 n := by
  intro h
  obtain ⟨k, hk, e⟩ := digits_mem (base := 16) (by omega) n _ h
  revert k; decide

theorem str_no_newline (plain : Char → Bool) (s : Text) : '\n' ∉ str plain s := by
  have h1 : ∀ c, '\n' ∉ escape plain c := by
    intro c
    unfold escape
    split; · decide
    split; · decide
    split; · decide
    split; · decide
    split; · decide
    split; · decide
    split
    · simp only [List.mem_singleton]; exact fun e => absurd e.symm ‹¬ c = '\n'›
    · have := hex_no_newline c.toNat
      simp [this]
  simp only [str, List.mem_append, List.mem_flatMap, not_or, not_exists, not_and]
  exact ⟨⟨by decide, fun c _ => h1 c⟩, by decide⟩

theorem position_no_newline (p : Position) : '\n' ∉ position none p := by
  rw [(C114_format p default ⟨p, p⟩ ⟨0, 0⟩).1, ← digits_toString, ← digits_toString]
  have h1 := digits_no_newline p.line
  have h2 := digits_no_newline p.offset
  simp only [List.mem_append, not_or]
  exact ⟨⟨⟨⟨by decide, h1⟩, by decide⟩, h2⟩, by decide⟩

/-- **C114.** A token is written on one line by `{:?}`, whatever text it is of, if its scopes are. -/
theorem C114_one_line {K : Type} (plain : Char → Bool) (scope : Form → K → Text) (hs : ∀ s, '\n' ∉ scope none s) (x : Token K) : '\n' ∉ token plain scope none x := by
  cases x with
  | newline => rw [token_newline]; decide
  | lexeme v s p =>
    have h1 := str_no_newline plain v
    have h2 := hs s
    have h3 := position_no_newline p
    rw [token_lexeme]
    unfold Debug.lexeme
    simp only [List.mem_append, not_or, openTuple, closeTuple, openStruct, closeStruct, between, Form.inner, Option.map_none]
    exact ⟨⟨⟨by decide, by decide⟩, ⟨⟨⟨⟨⟨⟨⟨⟨⟨by decide, by decide⟩, by decide⟩, h1⟩, by decide⟩, by decide⟩, h2⟩, by decide⟩, by decide⟩, h3⟩, by decide⟩, by decide⟩

/-- What a program writes that prints the tokens one after the other, without anything in between. -/
def tokenLog {K : Type} (plain : Char → Bool) (scope : Form → K → Text) (k : Form) (ts : List (Token K)) : Text := ts.flatMap (token plain scope k)

theorem token_ne_nil {K : Type} (plain : Char → Bool) (scope : Form → K → Text) (k : Form) (x : Token K) : token plain scope k x ≠ [] := by
  cases x with
  | newline => rw [token_newline]; decide
  | lexeme v s p => rw [token_lexeme]; simp [show "Lexeme".toList ≠ [] by decide]

/-- **C114.** The output for many tokens, with nothing in between, tells them all. -/
theorem C114_many {K : Type} (plain : Char → Bool) (scope : Form → K → Text) (hs : ∀ k, Readable (scope k)) (k : Form) :
    ∀ ts ts' : List (Token K), tokenLog plain scope k ts = tokenLog plain scope k ts' → ts = ts'
  | [], [], _ => rfl
  | [], y :: ys, h => by
    rw [tokenLog, tokenLog, List.flatMap_nil, List.flatMap_cons] at h
    exact absurd (List.append_eq_nil_iff.mp h.symm).1 (token_ne_nil _ _ _ _)
  | x :: xs, [], h => by
    rw [tokenLog, tokenLog, List.flatMap_nil, List.flatMap_cons] at h
    exact absurd (List.append_eq_nil_iff.mp h).1 (token_ne_nil _ _ _ _)
  | x :: xs, y :: ys, h => by
    rw [tokenLog, tokenLog, List.flatMap_cons, List.flatMap_cons] at h
    obtain ⟨rfl, h2⟩ := token_readable plain scope hs k _ _ _ _ h
    rw [C114_many plain scope hs k xs ys h2]

/-- **C114.** The output of all tokens of a text tells the text. -/
theorem C114_text (S : Segmenter) (H : Highlighter) (plain : Char → Bool) (scope : Form → H.Scopes → Text) (hs : ∀ k, Readable (scope k)) (k : Form) (hO : OffsetsOk H)
    (hp : ∀ p l, ∃ es, (H.parse p l).2 = .ok es) (ha : ∀ k op, (H.apply k op).2 = none) (data data' : Text) :
    ∃ it it' ts ts' e e', TokenIter.new H data = .ok (.ok it) ∧ Collects S it ts e ∧ TokenIter.new H data' = .ok (.ok it') ∧ Collects S it' ts' e' ∧
      (tokenLog plain scope k ts = tokenLog plain scope k ts' ↔ ts = ts') ∧ (tokenLog plain scope k ts = tokenLog plain scope k ts' → data = data') := by
  obtain ⟨it, ts, e, h1, h2, -, h3⟩ := C36_no_failure S H data hO hp ha
  obtain ⟨it', ts', e', h1', h2', -, h3'⟩ := C36_no_failure S H data' hO hp ha
  refine ⟨it, it', ts, ts', e, e', h1, h2, h1', h2', ⟨C114_many plain scope hs k ts ts', fun h => by rw [h]⟩, fun h => ?_⟩
  rw [← h3, ← h3', C114_many plain scope hs k ts ts' h]

/-! ## Cases -/

/-- Scopes written as a number in brackets. -/
def demoScope (_ : Form) (n : Nat) : Text := ['<'] ++ digits 10 n ++ ['>']

example (k : Form) : Readable (demoScope k) := by
  intro x y u v h
  simp only [demoScope, List.append_assoc, List.append_cancel_left_eq] at h
  exact digits_cancel (t := []) (by omega) (by rintro ⟨k, hk, h⟩; revert k; decide) h

example (k : Form) (n : Nat) : '\n' ∉ demoScope k n := by simp [demoScope, digits_no_newline]

example : token (fun c => c.toNat < 127) demoScope none (.lexeme "a\"é\n".toList 7 ⟨10, 0⟩) =
    "Lexeme(Lexeme { value: \"a\\\"\\u{e9}\\n\", scope: <7>, position: Position { line: 10, offset: 0 } })".toList := by decide +kernel

example : range (some 0) ⟨⟨1, 2⟩, ⟨3, 4⟩⟩ =
    "Range {\n    start: Position {\n        line: 1,\n        offset: 2,\n    },\n    end: Position {\n        line: 3,\n        offset: 4,\n    },\n}".toList := by decide +kernel

example : token (fun _ => true) demoScope (some 0) (.lexeme "x".toList 7 ⟨1, 0⟩) =
    "Lexeme(\n    Lexeme {\n        value: \"x\",\n        scope: <7>,\n        position: Position {\n            line: 1,\n            offset: 0,\n        },\n    },\n)".toList := by
  decide +kernel

/-- A quote and a backslash before one are told apart. -/
example : tokenLog (fun _ => true) demoScope none [.lexeme "\"".toList 0 ⟨0, 0⟩] ≠ tokenLog (fun _ => true) demoScope none [.lexeme "\\\"".toList 0 ⟨0, 0⟩] := by decide +kernel

end Scribe.Props
