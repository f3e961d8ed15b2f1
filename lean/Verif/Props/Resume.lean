import Verif.Proofs.Resume
import Verif.Props.Parser
/-!
# Property C103: every call of a token iterator, also after errors
-/
namespace Scribe.Props
open Spec TokenIter Workspace
variable {σ : Type}

/-- **C103.** For every highlighter and every string: there is an iterator unless the first line cannot be parsed. Any number of calls of `next` return, one
by one, what `callRun` says, also after errors, and leave the last error so far in `error`; after these calls it panics if `callRun` says so, else it returns
`None` for ever and `error` stays. -/
theorem C103_calls (S : Segmenter) (H : Highlighter) (data : Text) :
    match callRun S.segs H data with
    | .error e => TokenIter.new H data = .ok (.error e)
    | .ok (cs, panics) => ∃ it, TokenIter.new H data = .ok (.ok it) ∧
      (∀ n, n ≤ cs.length → watch S n it = .ok ((seen none cs).take n)) ∧
      (panics = true → ∀ n, cs.length < n → ∃ p, watch S n it = .error p) ∧
      (panics = false → ∀ n, watch S (cs.length + n) it = .ok (seen none cs ++ List.replicate n (none, lastError none cs))) := by
  have h := new_calls (S := S) (H := H) data
  have he : ∀ it, TokenIter.new H data = .ok (.ok it) → it.error = none := by
    intro it h
    simp only [TokenIter.new] at h
    cases hp : parseNextLine (H := H) {
      scopes := H.scopes, parser := H.parser, lines := LineIter.new data, currentLine := none, byteOffset := 0, position := ⟨0, 0⟩, lineEvents := [], error := none } with
    | error p => rw [hp] at h; cases h
    | ok r =>
      obtain ⟨res, it'⟩ := r
      rw [hp] at h
      cases res with
      | error e => cases h
      | ok u =>
        cases h
        simp only [parseNextLine] at hp
        cases hl : (LineIter.new data).next with
        | error p => rw [hl] at hp; cases hp
        | ok x =>
          obtain ⟨o, lines⟩ := x
          rw [hl] at hp
          simp only [Except.ok_bind'] at hp
          cases o with
          | none => cases hp; rfl
          | some nl =>
            dsimp only at hp
            split at hp
            · cases hp
            · cases hp; rfl
  cases hc : callRun S.segs H data with
  | error e => rw [hc] at h; exact h
  | ok r =>
    obtain ⟨cs, r⟩ := r
    rw [hc] at h
    obtain ⟨it, h1, h2⟩ := h
    obtain ⟨w1, w2, w3⟩ := h2.watch
    rw [seen_length] at w1 w2 w3
    refine ⟨it, h1, w1, w2, ?_⟩
    intro hr n
    rw [w3 hr n, he it h1, seen_last]

/-- C103: up to the first error these are the tokens of C102. -/
theorem C103_first (segs : Text → List Text) (H : Highlighter) (data : Text) :
    match tokenRun segs H data with
    | .error e => callRun segs H data = .error e
    | .ok (ts, none) => callRun segs H data = .ok (ts.map .ok, false)
    | .ok (ts, some none) => callRun segs H data = .ok (ts.map .ok, true)
    | .ok (ts, some (some e)) => ∃ cs r, callRun segs H data = .ok (ts.map .ok ++ .error e :: cs, r) := by
  unfold tokenRun callRun
  cases hp : (H.parse H.parser ((fileLines data).headD [])).2 with
  | error e => rfl
  | ok es =>
    dsimp only
    have h := linesCalls_run (H := H) segs (fileLines data) 0 H.scopes H.parser
    cases hf : fileLines data with
    | nil => rfl
    | cons l ls =>
      rw [hf] at h hp
      simp only [List.headD_cons] at hp
      have hd : ∃ ts r, linesRun segs 0 H.scopes H.parser (l :: ls) = (.newline :: ts, r) := by
        simp only [linesRun]
        cases hq : H.parse H.parser l with
        | mk p' res =>
          rw [hq] at hp
          cases hp
          dsimp only
          split
          · exact ⟨_, _, rfl⟩
          · exact ⟨_, _, rfl⟩
      obtain ⟨ts, r, hd⟩ := hd
      rw [hd] at h ⊢
      match r, h with
      | none, h => rw [h]; rfl
      | some none, h => rw [h]; rfl
      | some (some e), ⟨cs, r, h⟩ => exact ⟨cs, r, by rw [h]; rfl⟩

/-- C103: every lexeme that is ever returned, also after errors, is a piece of the line its position names. -/
theorem C103_pieces (S : Segmenter) (H : Highlighter) (data : Text) (it : TokenIter H) (hn : TokenIter.new H data = .ok (.ok it)) (n : Nat)
    (os : List (Option (Token H.Scopes) × Option H.Err)) (hw : watch S n it = .ok os) (v : Text) (k : H.Scopes) (p : Position) (w : Option H.Err)
    (ho : (some (.lexeme v k p), w) ∈ os) : ∃ l a b, (fileLines data)[p.line]? = some l ∧ l.filter (· != '\n') = a ++ v ++ b := by
  have h := C103_calls S H data
  have mem : ∀ cs, ∀ w0 : Option H.Err, ∀ t, (some t, w) ∈ seen w0 cs → .ok t ∈ cs := by
    intro cs
    induction cs with
    | nil => intro w0 t h; cases h
    | cons c cs ih =>
      intro w0 t h
      cases c with
      | ok t' =>
        rcases List.mem_cons.mp h with h | h
        · cases h; exact List.mem_cons_self
        · exact List.mem_cons_of_mem _ (ih _ _ h)
      | error e =>
        rcases List.mem_cons.mp h with h | h
        · cases h
        · exact List.mem_cons_of_mem _ (ih _ _ h)
  cases hc : callRun S.segs H data with
  | error e => rw [hc] at h; rw [h] at hn; cases hn
  | ok r =>
    obtain ⟨cs, r⟩ := r
    rw [hc] at h
    obtain ⟨it', h1, w1, w2, w3⟩ := h
    rw [hn] at h1; cases h1
    have hin : (some (.lexeme v k p), w) ∈ seen none cs := by
      by_cases hle : n ≤ cs.length
      · rw [w1 n hle] at hw; cases hw; exact List.mem_of_mem_take ho
      · cases r with
        | true => obtain ⟨p, hp⟩ := w2 rfl n (by omega); rw [hp] at hw; cases hw
        | false =>
          have := w3 rfl (n - cs.length)
          rw [Nat.add_sub_cancel' (by omega), hw] at this
          cases this
          rcases List.mem_append.mp ho with h | h
          · exact h
          · cases (List.mem_replicate.mp h).2
    have hcs := mem _ _ _ hin
    unfold callRun at hc
    cases hp : (H.parse H.parser ((fileLines data).headD [])).2 with
    | error e => rw [hp] at hc; cases hc
    | ok es =>
      rw [hp] at hc
      cases hc
      obtain ⟨i, l, a, b, h1, h2, h3⟩ := linesCalls_pieces (H := H) S.segs (fileLines data) 0 H.scopes H.parser v k p (List.mem_of_mem_tail hcs)
      rw [Nat.zero_add] at h1
      exact ⟨l, a, b, h1 ▸ h2, h3⟩

/-! ### Examples -/

/-- What is seen in `n` calls; `none` is a panic. -/
def demoCalls (offs : List (Nat × Nat)) (t : String) (n : Nat) : Option (List (Option Streamed × Option Nat)) :=
  match TokenIter.new (bytesH offs) (Demo.s t) with
  | .ok (.ok it) => match watch Demo.seg n it with
    | .ok os => some (os.map fun o => (o.1.map (fun t => match t with | .newline => .newline | .lexeme v k p => .lexeme v k p), o.2))
    | .error _ => none
  | _ => none

/-- The second line cannot be parsed: one `None`, then the third line. -/
example : demoCalls [(1, 7)] "ab\n!c\nd" 8 = some [(some (.lexeme (Demo.s "a") [] ⟨0, 0⟩), none), (some (.lexeme (Demo.s "b") [7] ⟨0, 1⟩), none), (none, some 1),
    (some .newline, some 1), (some (.lexeme (Demo.s "d") [7] ⟨2, 0⟩), some 1), (none, some 1), (none, some 1), (none, some 1)] := by decide +kernel

/-- The scope stack fails after the lexeme `b`, which is lost; the rest of the line follows, at its place. -/
example : demoCalls [(1, 7), (2, 9)] "abc" 4 = some [(some (.lexeme (Demo.s "a") [] ⟨0, 0⟩), none), (none, some 9), (some (.lexeme (Demo.s "c") [7] ⟨0, 2⟩), some 9),
    (none, some 9)] := by decide +kernel

/-- A failing scope at the place where the lexeme begins loses nothing. -/
example : demoCalls [(0, 9), (0, 7)] "ab" 3 = some [(none, some 9), (some (.lexeme (Demo.s "ab") [7] ⟨0, 0⟩), some 9), (none, some 9)] := by decide +kernel

/-- A panic after an error. -/
example : demoCalls [(0, 9), (1, 7)] "é" 1 = some [(none, some 9)] ∧ demoCalls [(0, 9), (1, 7)] "é" 2 = none := by decide +kernel

end Scribe.Props
