import Verif.Proofs.TokenStream
import Verif.Props.Token
/-!
# Properties C70, C71: the token stream as a whole
-/
namespace Scribe.Props
open Spec TokenIter

/-- **C70.** Iteration ends after at most as many tokens as the text has bytes and newlines together. -/
theorem C70_token_count (S : Segmenter) (H : Highlighter) (data : Text) (hO : OffsetsOk H) (it it' : TokenIter H) (ts : List (Token H.Scopes))
    (hn : TokenIter.new H data = .ok (.ok it)) (hc : Collects S it ts it') : ts.length ≤ blen data + data.count '\n' := by
  obtain ⟨hg, hl⟩ := new_good (S := S) hO hn
  have := collects_length hO hc hg
  have h2 : blen data = blen ((fileLines data).headD []) + blen (fileLines data).tail.flatten := by
    rw [← blen_append]
    conv => lhs; rw [← fileLines_flatten data]
    cases fileLines data <;> rfl
  have h3 : countNl data = data.count '\n' := by rw [countNl, List.count, List.countP_eq_length_filter]
  rw [later, hl] at this
  omega

/-- C70: a lexeme is empty only directly before a newline token (or before an error ends the stream): the highlighter has an event behind the newline and
one in front of it. So there is at most one on each line. -/
theorem C70_empty_lexemes (S : Segmenter) (H : Highlighter) (data : Text) (hO : OffsetsOk H) (it it' : TokenIter H) (ts : List (Token H.Scopes))
    (hn : TokenIter.new H data = .ok (.ok it)) (hc : Collects S it ts it') (x y : List (Token H.Scopes)) (k : H.Scopes) (p : Position)
    (h : ts = x ++ .lexeme [] k p :: y) : (∃ y', y = .newline :: y') ∨ (y = [] ∧ it'.error.isSome) :=
  collects_empty hO hc (new_good (S := S) hO hn).1 x k p y h

/-- C70: once it has ended without an error the iterator stays at its end. -/
theorem C70_fused (S : Segmenter) (H : Highlighter) (data : Text) (hO : OffsetsOk H) (it it' : TokenIter H) (ts : List (Token H.Scopes))
    (hn : TokenIter.new H data = .ok (.ok it)) (hc : Collects S it ts it') (he : it'.error = none) : TokenIter.next S it' = .ok (none, it') := by
  obtain ⟨h1, h2⟩ := collects_end hO hc (new_good (S := S) hO hn).1 he
  exact next_end h1 h2

/-- C70: no number of calls panics, also not calls after an error. -/
theorem C70_never_panics (S : Segmenter) (H : Highlighter) (data : Text) (hO : OffsetsOk H) (it : TokenIter H)
    (hn : TokenIter.new H data = .ok (.ok it)) (n : Nat) : ∃ r, nexts S n it = .ok r := by
  have ha := new_alive hO hn
  clear hn
  induction n generalizing it with
  | zero => exact ⟨_, rfl⟩
  | succ n ih =>
    obtain ⟨o, it1, h1, h2⟩ := next_alive (S := S) hO ha
    obtain ⟨r, hr⟩ := ih it1 h2
    exact ⟨(o :: r.1, r.2), by rw [nexts, h1]; show (nexts S n it1 >>= _) = _; rw [hr]; rfl⟩

/-- **C71.** A lexeme has one scope throughout: for each of its bytes, the scope stack is what all events of the lines before and the events
of its own line up to that byte (those before the first one beyond it) make of the empty stack. -/
theorem C71_scope_of_every_byte (S : Segmenter) (H : Highlighter) (data : Text) (hO : OffsetsOk H) (it it' : TokenIter H) (ts : List (Token H.Scopes))
    (hn : TokenIter.new H data = .ok (.ok it)) (hc : Collects S it ts it') (x y : List (Token H.Scopes)) (v : Text) (k : H.Scopes) (p : Position)
    (h : ts = x ++ .lexeme v k p :: y) (j : Nat) (hj : j < blen v) :
    k = scopeAfter H (((events H.parser (fileLines data)).take p.line).flatten ++
      ((events H.parser (fileLines data))[p.line]?.getD []).takeWhile (fun e => e.1 ≤ bytesAfter x + j)) := by
  have hp := C37_token_positions S H data hO it it' ts hn hc x y v k p h
  have := collects_scopes hO hc (new_good (S := S) hO hn).1 x v k p y h j hj
  rw [List.nil_append, ← hp] at this
  exact this

/-! ### Examples -/

/-- A highlighter with the same events on every line, at these byte offsets if the line is long enough; the event 9 cannot be applied, and lines
beginning with `!` cannot be parsed. -/
def offsetsH (offs : List (Nat × Nat)) : Highlighter where
  Parser := Unit
  Scopes := List Nat
  Op := Nat
  Err := Nat
  parser := ()
  scopes := []
  parse _ l := if l.head? = some '!' then ((), .error 1) else ((), .ok (offs.map fun e => (blen (l.take e.1), e.2)))
  apply k op := if op = 9 then (k, some 9) else (op :: k, none)

theorem offsetsH_ok (offs : List (Nat × Nat)) : OffsetsOk (offsetsH offs) := by
  intro p l p' es h e he
  simp only [offsetsH] at h
  split at h
  · cases h
  · cases h
    obtain ⟨q, _, rfl⟩ := List.mem_map.mp he
    exact ⟨l.take q.1, l.drop q.1, (List.take_append_drop _ _).symm, rfl⟩

/-- Results of calls. -/
inductive TokenSeen where
  | nothing
  | newline
  | lexeme (v : Text) (k : List Nat)
  deriving DecidableEq

/-- Observations of the iterator, if it can be created. -/
def tokensSeen (offs : List (Nat × Nat)) (t : String) (n : Nat) : R (Option (List TokenSeen)) := do
  match ← TokenIter.new (offsetsH offs) (Demo.s t) with
  | .error _ => return none
  | .ok it =>
    let (os, _) ← nexts Demo.seg n it
    return some (os.map fun o => match o with | none => .nothing | some .newline => .newline | some (.lexeme v k _) => .lexeme v k)

/-- The bound is attained, with an empty lexeme before the newline, and the iterator stays at its end. -/
example : tokensSeen [(1, 1), (2, 2)] "a\n" 5 = .ok (some [.lexeme (Demo.s "a") [], .lexeme [] [1], .newline, .nothing, .nothing]) := by decide +kernel

/-- A lexeme lost to an error: the scope change after `a` cannot be applied, so `a` is not returned. The next call carries on behind it. -/
example : tokensSeen [(1, 9), (2, 2)] "ab\nc" 6 =
    .ok (some [.nothing, .lexeme (Demo.s "b") [], .newline, .nothing, .nothing, .nothing]) := by decide +kernel

/-- After a line that could not be parsed the stream goes on with the line after it. -/
example : tokensSeen [] "a\n!b\nc" 6 =
    .ok (some [.lexeme (Demo.s "a") [], .nothing, .newline, .lexeme (Demo.s "c") [], .nothing, .nothing]) := by decide +kernel

/-- C70, finding: an error ends iteration but not for good: the same iterator can return tokens again, and the tokens returned in all then
leave out text. -/
theorem C70_not_fused_after_error : ∃ (S : Segmenter) (H : Highlighter) (data : Text) (it it1 it2 : TokenIter H) (t : Token H.Scopes),
    OffsetsOk H ∧ TokenIter.new H data = .ok (.ok it) ∧ Collects S it [] it1 ∧ it1.error.isSome ∧ TokenIter.next S it1 = .ok (some t, it2) ∧
    render [t] ≠ [] ∧ ¬ render [t] <+: data := by
  let H := offsetsH [(1, 9)]
  let l : LineIter := { data := Demo.s "ab", lineNumber := 0, lineStart := 0, lineEnd := 2, done := true }
  let it : TokenIter H := ⟨([] : List Nat), (), l, some (Demo.s "ab"), 0, ⟨0, 0⟩, [(1, (9 : Nat))], none⟩
  let it1 : TokenIter H := ⟨([] : List Nat), (), l, some (Demo.s "ab"), 1, ⟨0, 1⟩, [], some (9 : Nat)⟩
  let it2 : TokenIter H := ⟨([] : List Nat), (), l, none, 1, ⟨0, 1⟩, [], some (9 : Nat)⟩
  refine ⟨Demo.seg, H, Demo.s "ab", it, it1, it2, .lexeme (Demo.s "b") ([] : List Nat) ⟨0, 1⟩, offsetsH_ok _, rfl, .stop ?_, rfl, rfl, by decide, by decide⟩
  rfl

/-- The contract on offsets is needed: with an event inside a character the iterator panics. -/
example : let H : Highlighter := { offsetsH [] with parse := fun _ _ => ((), .ok [(1, (1 : Nat))]) }
    (match TokenIter.new H (Demo.s "é") with
      | .ok (.ok it) => (nexts Demo.seg 1 it).toOption.isNone
      | _ => false) = true := by decide +kernel

end Scribe.Props
