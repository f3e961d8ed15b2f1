import Verif.Proofs.Parser
import Verif.Props.Stream
/-!
# Property C102: tokens with any parser
-/
namespace Scribe.Props
open Spec TokenIter Workspace
variable {σ : Type}

/-- **C102.** For every highlighter, whatever offsets it reports, and every string: creating the iterator never panics and fails exactly if the first line
cannot be parsed; after that the tokens are those of `tokenRun`, and they end as it says: well, with that error, or with a panic. -/
theorem C102_any (S : Segmenter) (H : Highlighter) (data : Text) :
    (∀ e, TokenIter.new H data = .ok (.error e) ↔ tokenRun S.segs H data = .error e) ∧
    ∀ ts r, tokenRun S.segs H data = .ok (ts, r) ↔ ∃ it, TokenIter.new H data = .ok (.ok it) ∧ Ends S it ts r := by
  have h := new_run (S := S) (H := H) data
  cases hs : tokenRun S.segs H data with
  | error e =>
    rw [hs] at h
    dsimp only at h
    refine ⟨fun e' => ?_, fun ts r => ⟨fun k => (by cases k), ?_⟩⟩
    · rw [h]; constructor <;> (intro k; cases k; rfl)
    · rintro ⟨it, k, _⟩
      rw [h] at k; cases k
  | ok r =>
    obtain ⟨ts, r⟩ := r
    rw [hs] at h
    obtain ⟨it, h1, h2⟩ := h
    refine ⟨fun e' => ?_, fun ts' r' => ⟨fun k => ?_, ?_⟩⟩
    · rw [h1]; constructor <;> (intro k; cases k)
    · cases k; exact ⟨it, h1, h2⟩
    · rintro ⟨it1, k1, k2⟩
      rw [h1] at k1; cases k1
      obtain ⟨rfl, rfl⟩ := Ends.functional h2 k2
      rfl

/-- C102: whatever the parser does, the tokens that are returned read as a prefix of the string, as all of it if neither error nor panic ends them; each lexeme
is where the tokens before it end; and there are at most as many as bytes and newlines, and one. -/
theorem C102_prefix (S : Segmenter) (H : Highlighter) (data : Text) (it : TokenIter H) (hn : TokenIter.new H data = .ok (.ok it)) (ts : List (Token H.Scopes))
    (r : Option (Option H.Err)) (he : Ends S it ts r) :
    render ts <+: data ∧ (r = none → render ts = data) ∧ (∀ x v k p y, ts = x ++ .lexeme v k p :: y → p = posAfter S.segs x) ∧
    ts.length ≤ blen data + data.count '\n' + 1 := by
  obtain ⟨h1, h2, h3, h4⟩ := tokenRun_reads S.segs (((C102_any S H data).2 ts r).mpr ⟨it, hn, he⟩)
  refine ⟨h2, h3, ?_, h4⟩
  rintro x v k p y rfl
  have h := h1.at
  rw [h]
  unfold endsAt posAfter
  congr 1
  funext q t
  cases t <;> rfl

/-- C102: a parser need do no more than this: offsets at character boundaries of the line, and at most one other offset, behind its end. Then there is no panic
and the tokens are those of `stream`. -/
theorem C102_fit (S : Segmenter) (H : Highlighter) (hF : OffsetsFit H) (data : Text) :
    (∀ e, TokenIter.new H data = .ok (.error e) ↔ stream S.segs H data = .error e) ∧
    ∀ ts err, stream S.segs H data = .ok (ts, err) ↔ ∃ it it', TokenIter.new H data = .ok (.ok it) ∧ Collects S it ts it' ∧ it'.error = err := by
  have hfit := linesRun_fit hF S.segs (fileLines data) 0 H.scopes H.parser
  obtain ⟨h1, h2⟩ := linesRun_stream S.segs (fileLines data) 0 H.scopes H.parser hfit
  obtain ⟨k1, k2⟩ := C102_any S H data
  simp only [tokenRun] at k1 k2
  simp only [stream]
  cases hp : (H.parse H.parser ((fileLines data).headD [])).2 with
  | error e =>
    rw [hp] at k1 k2
    refine ⟨fun e' => by rw [k1 e']; simp, fun ts err => ⟨fun h => (by cases h), ?_⟩⟩
    rintro ⟨it, it', a, _⟩
    rw [(k1 e).mpr rfl] at a; cases a
  | ok es =>
    rw [hp] at k1 k2
    dsimp only at k1 k2 ⊢
    obtain ⟨it, a, b⟩ := (k2 _ _).mp rfl
    rw [h2, ← h1] at b
    refine ⟨fun e' => by rw [a]; simp, fun ts err => ⟨fun h => ?_, ?_⟩⟩
    · cases h
      cases hr : (streamFrom S.segs 0 H.scopes H.parser (fileLines data)).2 with
      | none => rw [hr] at b; obtain ⟨it', b1, b2⟩ := b; exact ⟨it, it', a, b1, b2⟩
      | some e => rw [hr] at b; obtain ⟨it', b1, b2⟩ := b; exact ⟨it, it', a, b1, b2⟩
    · rintro ⟨it1, it', a', b1, b2⟩
      rw [a] at a'; cases a'
      have : Ends S it ts (err.map some) := by
        cases err with
        | none => exact ⟨it', b1, b2⟩
        | some e => exact ⟨it', b1, b2⟩
      obtain ⟨e1, e2⟩ := Ends.functional b this
      rw [e1]
      cases err with
      | none => cases hr : (streamFrom S.segs 0 H.scopes H.parser (fileLines data)).2 with
        | none => rfl
        | some e => rw [hr] at e2; cases e2
      | some e => cases hr : (streamFrom S.segs 0 H.scopes H.parser (fileLines data)).2 with
        | none => rw [hr] at e2; cases e2
        | some e' => rw [hr] at e2; cases e2; rfl

/-- C102: the contract the other properties of tokens assume is a stronger one, for parsers whose lines end with the only newline they have. -/
theorem C102_contract (H : Highlighter) (h : ∀ p l p' es, H.parse p l = (p', .ok es) →
      (∃ body, l = body ++ ['\n'] ∧ '\n' ∉ body) ∨ '\n' ∉ l) (hO : OffsetsOk H) : OffsetsFit H := by
  intro p l p' es hp e he
  have key : ∀ e ∈ es, (∃ x y, l.filter (· != '\n') = x ++ y ∧ e.1 = blen x) ∨ e.1 = blen (l.filter (· != '\n')) + 1 := by
    intro e he
    obtain ⟨x, y, hx, hx'⟩ := hO p l p' es hp e he
    rcases h p l p' es hp with ⟨body, rfl, hb⟩ | hl
    · rw [List.filter_append, filter_no_nl hb, show ['\n'].filter (· != '\n') = [] from rfl, List.append_nil]
      rcases List.eq_nil_or_concat y with rfl | ⟨y', c, rfl⟩
      · right
        rw [hx', ← List.append_nil x, ← hx, blen_append]; rfl
      · left
        rw [List.concat_eq_append, ← List.append_assoc] at hx
        obtain ⟨h1, -⟩ := List.append_inj' hx rfl
        exact ⟨x, y', h1, hx'⟩
    · exact Or.inl ⟨x, y, by rw [filter_no_nl hl, hx], hx'⟩
  rcases key e he with h1 | h1
  · exact Or.inl h1
  · refine Or.inr ⟨by omega, fun e' he' hl => ?_⟩
    rcases key e' he' with ⟨x, y, h2, h3⟩ | h2
    · rw [h2, blen_append] at hl; omega
    · omega

/-- C102: highlighting the current buffer after any program, with any highlighters: `current_buffer_tokens` itself never panics, and the tokens of what it
returns are those of `tokenRun` for the text of the selected document. -/
theorem C102_current (S : Segmenter) (A : Alloc) (H : σ → Highlighter) (s : Syntaxes σ) (fs : Fs) (path : Path) (w0 : Workspace σ)
    (h0 : Workspace.new fs path (some s) = some w0) (as : List (Act σ)) (x : Sheet σ) (y : σ)
    (hx : (noSheets.acts S.segs A.grant s as).2.tabs.selected = some x) (hy : x.syn = some y) :
    ∃ w, w0.acts S A as = .ok ((noSheets.acts S.segs A.grant s as).1, w) ∧
      match tokenRun S.segs (H y) x.doc.zip.text with
      | .error e => w.currentBufferIter H = .ok (.error (.highlighter ⟨y, e⟩))
      | .ok (ts, r) => ∃ it, w.currentBufferIter H = .ok (.ok ⟨y, it⟩) ∧ Ends S it ts r := by
  obtain ⟨w, h1, _, _, _, _, ht⟩ := C74_program S A s fs path w0 h0 as
  refine ⟨w, h1, ?_⟩
  have hc : w.currentBufferIter H = (TokenIter.new (H y) x.doc.zip.text >>= fun i =>
      match i with
      | .error e => .ok (.error (.highlighter ⟨y, e⟩))
      | .ok it => .ok (.ok ⟨y, it⟩)) := by
    rw [currentBufferIter_eq, ht]
    show (Except.ok (match (noSheets.acts S.segs A.grant s as).2.tabs.selected with | none => _ | some x => _) >>= _) = _
    rw [hx]; simp only [hy]; rfl
  have h := new_run (S := S) (H := H y) x.doc.zip.text
  cases hs : tokenRun S.segs (H y) x.doc.zip.text with
  | error e => rw [hs] at h; dsimp only at h ⊢; rw [hc, h]; rfl
  | ok r =>
    obtain ⟨ts, err⟩ := r
    rw [hs] at h
    obtain ⟨it, h1, h2⟩ := h
    exact ⟨it, by rw [hc, h1]; rfl, h2⟩

/-! ### Examples -/

/-- Events at these byte offsets of each line, whether the line has them or not. -/
def bytesH (offs : List (Nat × Nat)) : Highlighter where
  Parser := Unit
  Scopes := List Nat
  Op := Nat
  Err := Nat
  parser := ()
  scopes := []
  parse _ l := if l.head? = some '!' then ((), .error 1) else ((), .ok offs)
  apply k op := if op = 9 then (k, some 9) else (op :: k, none)

/-- The tokens and how they end: `some none` is a panic. -/
def demoRun (offs : List (Nat × Nat)) (t : String) : Option (List Streamed × Option (Option Nat)) :=
  match tokenRun Demo.seg.segs (bytesH offs) (Demo.s t) with
  | .ok (ts, e) => some (ts.map (fun t => match t with | .newline => .newline | .lexeme v k p => .lexeme v k p), e)
  | .error _ => none

/-- An event inside of `é` on the second line. -/
example : demoRun [(1, 7)] "ab\néc" = some ([.lexeme (Demo.s "a") [] ⟨0, 0⟩, .lexeme (Demo.s "b") [7] ⟨0, 1⟩, .newline], some none) := by decide +kernel

/-- One offset far behind the end of each line does no harm, … -/
example : demoRun [(1, 7), (9, 8)] "ab\nc" = some ([.lexeme (Demo.s "a") [] ⟨0, 0⟩, .lexeme (Demo.s "b") [7] ⟨0, 1⟩, .newline,
    .lexeme (Demo.s "c") [8, 7] ⟨1, 0⟩, .lexeme [] [7, 8, 7] ⟨1, 1⟩], none) := by decide +kernel

/-- … two different ones do: the lexeme before them is returned, then it panics. -/
example : demoRun [(8, 7), (9, 8)] "ab\nc" = some ([.lexeme (Demo.s "ab") [] ⟨0, 0⟩], some none) := by decide +kernel

/-- Offsets that go back only change the scopes. -/
example : demoRun [(2, 7), (1, 6)] "abc" = some ([.lexeme (Demo.s "ab") [] ⟨0, 0⟩, .lexeme (Demo.s "c") [6, 7] ⟨0, 2⟩], none) := by decide +kernel

/-- A highlighter that meets the contract but not the stronger one. -/
example : OffsetsFit (bytesH [(0, 1)]) ∧ ∃ H : Highlighter, OffsetsFit H ∧ ¬ OffsetsOk H := by
  refine ⟨?_, { bytesH [] with parse := fun _ l => ((), .ok [(blen l + 7, (1 : Nat))]) }, ?_, ?_⟩
  · intro p l p' es h e he
    simp only [bytesH] at h
    split at h
    · cases h
    · cases h
      cases (List.mem_singleton (b := ((0, 1) : Nat × Nat))).mp he
      exact Or.inl ⟨[], _, rfl, rfl⟩
  · intro p l p' es h e he
    cases h
    cases List.mem_singleton.mp he
    right
    have : blen (l.filter (· != '\n')) ≤ blen l := by
      clear he
      induction l with
      | nil => exact Nat.le_refl _
      | cons c l ih =>
        rw [List.filter_cons]
        split
        · rw [blen_cons, blen_cons]; omega
        · rw [blen_cons]; omega
    refine ⟨by dsimp only; omega, fun e' he' _ => ?_⟩
    cases List.mem_singleton.mp he'
    rfl
  · intro h
    obtain ⟨x, y, h1, h2⟩ := h () [] () _ rfl (blen [] + 7, (1 : Nat)) (List.mem_singleton.mpr rfl)
    obtain ⟨rfl, -⟩ := List.append_eq_nil_iff.mp h1.symm
    cases h2

end Scribe.Props
