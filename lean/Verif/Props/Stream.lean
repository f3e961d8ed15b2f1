import Verif.Proofs.Stream
import Verif.Props.Highlight
/-!
# Property C101: the token stream as a function of the text
-/
namespace Scribe.Props
open Spec TokenIter Workspace
variable {σ : Type}

/-- **C101.** For every highlighter with sane event offsets and every string, the tokens, their scopes and positions, and the error, are those of `stream`. -/
theorem C101_stream (S : Segmenter) (H : Highlighter) (data : Text) (hO : OffsetsOk H) :
    (∀ e, TokenIter.new H data = .ok (.error e) ↔ stream S.segs H data = .error e) ∧
    ∀ ts err, stream S.segs H data = .ok (ts, err) ↔
      ∃ it it', TokenIter.new H data = .ok (.ok it) ∧ Collects S it ts it' ∧ it'.error = err := by
  have h := new_stream (S := S) hO data
  cases hs : stream S.segs H data with
  | error e =>
    rw [hs] at h
    dsimp only at h
    refine ⟨fun e' => ?_, fun ts err => ⟨fun k => (by cases k), ?_⟩⟩
    · rw [h]; constructor <;> (intro k; cases k; rfl)
    · rintro ⟨it, it', k, _⟩
      rw [h] at k; cases k
  | ok r =>
    obtain ⟨ts, err⟩ := r
    rw [hs] at h
    obtain ⟨it, it', h1, h2, h3⟩ := h
    refine ⟨fun e' => ?_, fun ts' err' => ⟨fun k => ?_, ?_⟩⟩
    · rw [h1]; constructor <;> (intro k; cases k)
    · cases k; exact ⟨it, it', h1, h2, h3⟩
    · rintro ⟨it1, it1', k1, k2, k3⟩
      rw [h1] at k1; cases k1
      obtain ⟨rfl, rfl⟩ := h2.functional k2
      rw [← h3, ← k3]

/-- C101: an error is recorded exactly if parsing the lines one after the other and applying their events fails, and then it is the first failure. -/
theorem C101_error (S : Segmenter) (H : Highlighter) (data : Text) (hO : OffsetsOk H) :
    (∃ e, TokenIter.new H data = .ok (.error e) ∧ (H.parse H.parser ((fileLines data).headD [])).2 = .error e ∧
      firstError H H.scopes H.parser (fileLines data) = some e) ∨
    ∃ it ts it', TokenIter.new H data = .ok (.ok it) ∧ Collects S it ts it' ∧ it'.error = firstError H H.scopes H.parser (fileLines data) := by
  have h := new_stream (S := S) hO data
  unfold stream at h
  cases hp : (H.parse H.parser ((fileLines data).headD [])).2 with
  | error e =>
    rw [hp] at h
    refine Or.inl ⟨e, h, rfl, ?_⟩
    cases hl : fileLines data with
    | nil =>
      rcases line_cases data with hr | ⟨l, r', hl', rfl⟩
      · rw [fileLines_no_nl hr] at hl; cases hl
      · rw [fileLines_append hl'] at hl; cases hl
    | cons l ls =>
      rw [hl, List.headD_cons] at hp
      obtain ⟨p', hp'⟩ : ∃ p', H.parse H.parser l = (p', .error e) := ⟨_, Prod.ext rfl hp⟩
      simp only [firstError, hp']
  | ok es =>
    rw [hp] at h
    obtain ⟨it, it', h1, h2, h3⟩ := h
    exact Or.inr ⟨it, _, it', h1, h2, h3.trans (streamFrom_error _ _ _ _ _)⟩

/-- C101: after any program, highlighting the current buffer gives the stream of the text of the selected document under the highlighter for its syntax. -/
theorem C101_current (S : Segmenter) (A : Alloc) (H : σ → Highlighter) (hO : ∀ y, OffsetsOk (H y)) (s : Syntaxes σ) (fs : Fs) (path : Path) (w0 : Workspace σ)
    (h0 : Workspace.new fs path (some s) = some w0) (as : List (Act σ)) (x : Sheet σ) (y : σ)
    (hx : (noSheets.acts S.segs A.grant s as).2.tabs.selected = some x) (hy : x.syn = some y) :
    ∃ w, w0.acts S A as = .ok ((noSheets.acts S.segs A.grant s as).1, w) ∧
      match stream S.segs (H y) x.doc.zip.text with
      | .error e => w.currentBufferIter H = .ok (.error (.highlighter ⟨y, e⟩))
      | .ok (ts, e) => ∃ it it', w.currentBufferIter H = .ok (.ok ⟨y, it⟩) ∧ Collects S it ts it' ∧ it'.error = e := by
  obtain ⟨w, h1, _, _, _, _, ht⟩ := C74_program S A s fs path w0 h0 as
  refine ⟨w, h1, ?_⟩
  have hc : w.currentBufferIter H = (TokenIter.new (H y) x.doc.zip.text >>= fun i =>
      match i with
      | .error e => .ok (.error (.highlighter ⟨y, e⟩))
      | .ok it => .ok (.ok ⟨y, it⟩)) := by
    rw [currentBufferIter_eq, ht]
    show (Except.ok (match (noSheets.acts S.segs A.grant s as).2.tabs.selected with | none => _ | some x => _) >>= _) = _
    rw [hx]; simp only [hy]; rfl
  have h := new_stream (S := S) (hO y) x.doc.zip.text
  cases hs : stream S.segs (H y) x.doc.zip.text with
  | error e => rw [hs] at h; dsimp only at h ⊢; rw [hc, h]; rfl
  | ok r =>
    obtain ⟨ts, err⟩ := r
    rw [hs] at h
    obtain ⟨it, it', h1, h2, h3⟩ := h
    exact ⟨it, it', by rw [hc, h1]; rfl, h2, h3⟩

/-! ### Examples -/

/-- A token. -/
inductive Streamed where
  | newline
  | lexeme (v : Text) (k : List Nat) (p : Position)
  deriving DecidableEq

/-- The stream of a text for events at these places of each line. -/
def demoStream (offs : List (Nat × Nat)) (t : String) : Option (List Streamed × Option Nat) :=
  match stream Demo.seg.segs (offsetsH offs) (Demo.s t) with
  | .ok (ts, e) => some (ts.map (fun t => match t with | .newline => .newline | .lexeme v k p => .lexeme v k p), e)
  | .error _ => none

/-- Two events at one place and one behind the newline. -/
example : demoStream [(1, 7), (1, 8), (3, 6)] "ab\nc" =
    some ([.lexeme (Demo.s "a") [] ⟨0, 0⟩, .lexeme (Demo.s "b") [8, 7] ⟨0, 1⟩, .newline, .lexeme (Demo.s "c") [6, 8, 7] ⟨1, 0⟩], none) := by decide +kernel

/-- The second line cannot be parsed: there is no token for it, nor for the newline before it. -/
example : demoStream [(1, 7)] "ab\n!c\nd" = some ([.lexeme (Demo.s "a") [] ⟨0, 0⟩, .lexeme (Demo.s "b") [7] ⟨0, 1⟩], some 1) := by decide +kernel

def demoFirstError (offs : List (Nat × Nat)) (t : String) : Option Nat :=
  firstError (offsetsH offs) (offsetsH offs).scopes (offsetsH offs).parser (fileLines (Demo.s t))

/-- The first line cannot be parsed; the second; an event cannot be applied; no failure. -/
example : demoFirstError [(1, 7)] "!ab" = some 1 ∧ demoFirstError [(1, 7)] "ab\n!c\nd" = some 1 ∧ demoFirstError [(1, 7), (2, 9)] "ab\n!" = some 9 ∧
    demoFirstError [(1, 7)] "ab\nc" = none := by decide +kernel

end Scribe.Props
