import Verif.Props.Errors
import Verif.Props.TokenStream
/-!
# Property C83: highlighting the current buffer
-/
namespace Scribe.Props
open Spec Workspace TokenIter GapBuffer

variable {σ : Type}

theorem parseNextLine_fails {H : Highlighter} {it it' : TokenIter H} {e : H.Err} (h : parseNextLine it = .ok (.error e, it')) :
    FailsWith H e := by
  unfold parseNextLine at h
  obtain ⟨⟨next, lines⟩, _, h⟩ := bind_ok h
  cases next with
  | none => cases h
  | some nl =>
    obtain ⟨number, line⟩ := nl
    cases hp : H.parse it.parser line with
    | mk parser r =>
      simp only [hp] at h
      cases r with
      | error x => cases h; exact Or.inr ⟨it.parser, line, by rw [hp]⟩
      | ok events => cases h

theorem parseNextLine_error {H : Highlighter} {it it' : TokenIter H} {r} (h : parseNextLine it = .ok (r, it')) : it'.error = it.error := by
  unfold parseNextLine at h
  obtain ⟨⟨next, lines⟩, _, h⟩ := bind_ok h
  cases next with
  | none => cases h; rfl
  | some nl =>
    obtain ⟨number, line⟩ := nl
    cases hp : H.parse it.parser line with
    | mk parser r =>
      simp only [hp] at h
      cases r <;> cases h <;> rfl

theorem buildLoop_fails {S : Segmenter} {H : Highlighter} {line : Text} {eol : Nat} {es : List (Nat × H.Op)} {it it' : TokenIter H} {r}
    (h : buildLoop S line eol es it = .ok (r, it')) : it'.error = it.error ∧ ∀ e, r = .error e → FailsWith H e := by
  induction es generalizing it with
  | nil =>
    unfold buildLoop at h
    dsimp only at h
    split at h
    · obtain ⟨v, _, h⟩ := bind_ok h
      cases h
      exact ⟨rfl, fun e he => by cases he⟩
    · cases h
      exact ⟨rfl, fun e he => by cases he⟩
  | cons ev es ih =>
    obtain ⟨offset, op⟩ := ev
    unfold buildLoop at h
    dsimp only at h
    split at h
    · obtain ⟨v, _, h⟩ := bind_ok h
      cases ha : H.apply it.scopes op with
      | mk scopes o =>
        simp only [ha] at h
        cases o with
        | none => cases h; exact ⟨rfl, fun e he => by cases he⟩
        | some x => cases h; exact ⟨rfl, fun e he => by cases he; exact Or.inl ⟨it.scopes, op, by rw [ha]⟩⟩
    · cases ha : H.apply it.scopes op with
      | mk scopes o =>
        simp only [ha] at h
        cases o with
        | none =>
          dsimp only at h
          obtain ⟨k1, k2⟩ := ih h
          exact ⟨k1, k2⟩
        | some x => cases h; exact ⟨rfl, fun e he => by cases he; exact Or.inl ⟨it.scopes, op, by rw [ha]⟩⟩

theorem next_fails {S : Segmenter} {H : Highlighter} {it it' : TokenIter H} {o} (h : TokenIter.next S it = .ok (o, it')) :
    it'.error = it.error ∨ ∃ e, it'.error = some e ∧ FailsWith H e := by
  unfold TokenIter.next at h
  obtain ⟨⟨r, it1⟩, hb, h⟩ := bind_ok h
  have hb' : it1.error = it.error ∧ ∀ e, r = .error e → FailsWith H e := by
    unfold buildNextToken at hb
    cases hl : it.currentLine with
    | none => rw [hl] at hb; cases hb; exact ⟨rfl, fun e he => by cases he⟩
    | some line =>
      rw [hl] at hb
      obtain ⟨eol, _, hb⟩ := bind_ok hb
      exact buildLoop_fails hb
  cases r with
  | error e => cases h; exact Or.inr ⟨e, rfl, hb'.2 e rfl⟩
  | ok t =>
    cases t with
    | some t => cases h; exact Or.inl hb'.1
    | none =>
      obtain ⟨⟨p, it2⟩, hp, h⟩ := bind_ok h
      cases p with
      | error e => cases h; exact Or.inr ⟨e, rfl, parseNextLine_fails hp⟩
      | ok u => cases h; exact Or.inl ((parseNextLine_error hp).trans hb'.1)

theorem collects_fails {S : Segmenter} {H : Highlighter} {it it' : TokenIter H} {ts : List (Token H.Scopes)} (hc : Collects S it ts it')
    (h0 : ∀ e, it.error = some e → FailsWith H e) : ∀ e, it'.error = some e → FailsWith H e := by
  have step : ∀ {a b : TokenIter H} {o}, TokenIter.next S a = .ok (o, b) → (∀ e, a.error = some e → FailsWith H e) →
      ∀ e, b.error = some e → FailsWith H e := by
    intro a b o hn ha e he
    rcases next_fails hn with h | ⟨x, hx, hf⟩
    · exact ha e (h ▸ he)
    · rw [hx] at he; cases he; exact hf
  induction hc with
  | stop h => exact step h h0
  | next h _ ih => exact ih (step h h0)

theorem iter_new_fails {H : Highlighter} {data : Text} {r} (h : TokenIter.new H data = .ok r) :
    (∀ e, r = .error e → FailsWith H e) ∧ ∀ it, r = .ok it → it.error = none := by
  unfold TokenIter.new at h
  obtain ⟨⟨p, it1⟩, hp, h⟩ := bind_ok h
  cases p with
  | error e => cases h; exact ⟨fun x hx => by cases hx; exact parseNextLine_fails hp, fun it hi => by cases hi⟩
  | ok u => cases h; exact ⟨fun x hx => (by cases hx), fun it hi => (by cases hi; exact parseNextLine_error hp)⟩

/-- In the documents of a program that does not take syntaxes away, each has a syntax. -/
theorem keeps_syntaxes (segs : Text → List Text) (grant : Nat → Nat → Nat → Nat) (s : Syntaxes σ) (as : List (Act σ)) (hk : KeepsSyntaxes as) (e : Studio σ)
    (he : ∀ x ∈ e.tabs.items, x.syn.isSome) : ∀ x ∈ (e.acts segs grant s as).2.tabs.items, x.syn.isSome := by
  induction as generalizing e with
  | nil => exact he
  | cons a as ih =>
    refine ih (fun a ha => hk a (List.mem_cons_of_mem _ ha)) _ ?_
    have hadd : ∀ (d : ZDoc) (p : Option Path) (y : Option σ), ∀ x ∈ (e.add s d p y).tabs.items, x.syn.isSome := by
      intro d p y x hx
      unfold Studio.add Tabs.add at hx
      dsimp only at hx
      split at hx
      · simp only [List.mem_singleton] at hx; rw [hx]; rfl
      · simp only [List.mem_append, List.mem_cons] at hx
        rcases hx with h | h | h
        · exact he x (List.mem_of_mem_take h)
        · rw [h]; rfl
        · exact he x (List.mem_of_mem_drop h)
    have hedit : ∀ (f : Sheet σ → Sheet σ), (∀ x, x.syn.isSome → (f x).syn.isSome) → ∀ x ∈ (e.tabs.edit f).items, x.syn.isSome := by
      intro f hf x hx
      obtain ⟨i, hi⟩ := List.mem_iff_getElem?.mp hx
      simp only [Tabs.edit, List.getElem?_modify] at hi
      cases hy : e.tabs.items[i]? with
      | none => rw [hy] at hi; cases hi
      | some y =>
        rw [hy] at hi
        have hm := he y (List.mem_of_getElem? hy)
        simp only [Option.map_eq_map, Option.map_some, Option.some.injEq] at hi
        rw [← hi]
        split
        · exact hf y hm
        · exact hm
    have hk' := hk a (by simp)
    cases a with
    | add clock content cs id path syn => exact hadd _ _ _
    | openPath clock f0 f1 f2 p =>
      intro x hx
      simp only [Studio.act] at hx
      split at hx
      · exact he x hx
      · split at hx
        · exact hadd _ _ _ x hx
        · exact he x hx
    | close =>
      intro x hx
      rcases List.mem_append.mp hx with h | h
      · exact he x (List.mem_of_mem_take h)
      · exact he x (List.mem_of_mem_drop h)
    | next => exact he
    | previous => exact he
    | updateSyntax => exact hedit _ (fun x _ => rfl)
    | cmd c => exact hedit _ (fun x h => h)
    | setPath p => exact hedit _ (fun x h => h)
    | setSyntax y =>
      cases y with
      | none => exact absurd rfl hk'
      | some y => exact hedit _ (fun x _ => rfl)

/-- The iterator of the current buffer, by what `current_buffer_tokens` gives. -/
theorem currentBufferIter_eq (H : σ → Highlighter) (w : Workspace σ) :
    w.currentBufferIter H = w.currentBufferTokens >>= fun r =>
      match r with
      | .error .emptyWorkspace => .ok (.error .emptyWorkspace)
      | .error .missingSyntax => .ok (.error .missingSyntax)
      | .ok (text, y) => TokenIter.new (H y) text >>= fun i =>
        match i with
        | .error e => .ok (.error (.highlighter ⟨y, e⟩))
        | .ok it => .ok (.ok ⟨y, it⟩) := by
  unfold currentBufferIter currentBufferTokens
  cases w.current with
  | none => rfl
  | some b =>
    simp only []
    cases b.buf.data.toStr with
    | error e => rfl
    | ok t =>
      simp only [Except.ok_bind']
      cases b.syn with
      | none => rfl
      | some y => rfl

/-- **C83.** After any program, highlighting the current buffer fails with `EmptyWorkspace` if no document is open, with `MissingSyntax` if the
selected one has no syntax, and otherwise only with an error of the highlighter for its syntax. If it does not fail, the tokens are the text of the document as edited by
then; if an error of the highlighter ends the iteration they are a part of it from the start. -/
theorem C83_current (S : Segmenter) (A : Alloc) (H : σ → Highlighter) (hO : ∀ y, OffsetsOk (H y)) (s : Syntaxes σ) (fs : Fs) (path : Path) (w0 : Workspace σ)
    (h0 : Workspace.new fs path (some s) = some w0) (as : List (Act σ)) :
    let e := (noSheets.acts S.segs A.grant s as).2
    ∃ w, w0.acts S A as = .ok ((noSheets.acts S.segs A.grant s as).1, w) ∧
      (e.tabs.items = [] → w.currentBufferIter H = .ok (.error .emptyWorkspace)) ∧
      (e.tabs.items ≠ [] → ∃ x, e.tabs.selected = some x ∧
        (x.syn = none → w.currentBufferIter H = .ok (.error .missingSyntax)) ∧
        ∀ y, x.syn = some y →
          (∃ err, w.currentBufferIter H = .ok (.error (.highlighter ⟨y, err⟩)) ∧ FailsWith (H y) err) ∨
          ∃ it ts it', w.currentBufferIter H = .ok (.ok ⟨y, it⟩) ∧ Collects S it ts it' ∧
            ((it'.error = none ∧ render ts = x.doc.zip.text) ∨
              ∃ err, it'.error = some err ∧ FailsWith (H y) err ∧ render ts <+: x.doc.zip.text)) := by
  intro e
  obtain ⟨w, h1, hi, hcur, hsh, _, ht⟩ := C74_program S A s fs path w0 h0 as
  refine ⟨w, h1, ?_, ?_⟩
  · intro hn
    have hs : e.tabs.selected = none := by rw [Tabs.selected, hn]; rfl
    rw [currentBufferIter_eq, ht]
    show (Except.ok (match e.tabs.selected with | none => _ | some x => _) >>= _) = _
    rw [hs]; rfl
  · intro hn
    have hx : ∃ x, e.tabs.selected = some x := by
      cases hs : e.tabs.selected with
      | some x => exact ⟨x, rfl⟩
      | none =>
        exfalso
        obtain ⟨w', _, ⟨⟨d, k2, k3, _⟩, _⟩, _⟩ := (studies_new (S := S) (A := A) h0).acts (S := S) as
        have hlen : d.tabs.items.length = e.tabs.items.length := k3.items.length_eq
        have hsel : d.tabs.sel = e.tabs.sel := k3.sel
        rw [Tabs.selected, List.getElem?_eq_none_iff, ← hsel, ← hlen] at hs
        cases k2 with
        | empty h => rw [h] at hlen; exact hn (List.length_eq_zero_iff.mp hlen.symm)
        | sel a c z h hs' => rw [h, hs'] at hs; simp at hs; omega
    obtain ⟨x, hx⟩ := hx
    refine ⟨x, hx, ?_, ?_⟩
    · intro hy
      rw [currentBufferIter_eq, ht]
      show (Except.ok (match e.tabs.selected with | none => _ | some x => _) >>= _) = _
      rw [hx]; simp only [hy]; rfl
    · intro y hy
      have hc : w.currentBufferIter H = (TokenIter.new (H y) x.doc.zip.text >>= fun i =>
          match i with
          | .error e => .ok (.error (.highlighter ⟨y, e⟩))
          | .ok it => .ok (.ok ⟨y, it⟩)) := by
        rw [currentBufferIter_eq, ht]
        show (Except.ok (match e.tabs.selected with | none => _ | some x => _) >>= _) = _
        rw [hx]; simp only [hy]; rfl
      rcases C36_tokens_are_lossless S (H y) x.doc.zip.text (hO y) with ⟨err, k1, _⟩ | ⟨it, ts, it', k1, k2, _, k3⟩
      · exact Or.inl ⟨err, by rw [hc, k1]; rfl, (iter_new_fails k1).1 err rfl⟩
      · refine Or.inr ⟨it, ts, it', by rw [hc, k1]; rfl, k2, ?_⟩
        rcases k3 with k3 | ⟨k3, _, k4⟩
        · exact Or.inl k3
        · obtain ⟨err, herr⟩ := Option.isSome_iff_exists.mp k3
          refine Or.inr ⟨err, herr, collects_fails k2 ?_ err herr, k4⟩
          intro e he
          rw [(iter_new_fails k1).2 it rfl] at he
          cases he

/-- C83: `MissingSyntax` comes only from taking a syntax away by hand. -/
theorem C83_has_syntax (S : Segmenter) (A : Alloc) (H : σ → Highlighter) (hO : ∀ y, OffsetsOk (H y)) (s : Syntaxes σ) (fs : Fs) (path : Path)
    (w0 w : Workspace σ) (h0 : Workspace.new fs path (some s) = some w0) (as : List (Act σ)) (hk : KeepsSyntaxes as) (rs : List Bool)
    (h : w0.acts S A as = .ok (rs, w)) : w.currentBufferIter H ≠ .ok (.error .missingSyntax) := by
  obtain ⟨w', h1, h2, h3⟩ := C83_current S A H hO s fs path w0 h0 as
  rw [h] at h1
  cases h1
  intro hm
  by_cases hn : (noSheets.acts S.segs A.grant s as).2.tabs.items = []
  · rw [h2 hn] at hm; cases hm
  · obtain ⟨x, hx, _, h4⟩ := h3 hn
    have := keeps_syntaxes S.segs A.grant s as hk noSheets (by simp [noSheets]) x (List.mem_of_getElem? hx)
    obtain ⟨y, hy⟩ := Option.isSome_iff_exists.mp this
    rcases h4 y hy with ⟨err, h5, _⟩ | ⟨it, ts, it', h5, _⟩
    · rw [h5] at hm; cases hm
    · rw [h5] at hm; cases hm

/-- C83: in text without carriage returns whose lexemes begin and end on cluster boundaries, the cursor can be moved to each lexeme, and reading from there as many
clusters as it has gives the lexeme. -/
theorem C83_jump (S : Segmenter) (H : Highlighter) (g : GapBuffer) (data : Text) (hg : Holds S g data) (hO : OffsetsOk H) (it it' : TokenIter H)
    (ts : List (Token H.Scopes)) (hn : TokenIter.new H data = .ok (.ok it)) (hc : Collects S it ts it') (hcr : '\r' ∉ data)
    (hb : ∀ x y v k p, ts = x ++ .lexeme v k p :: y → ∃ a b, S.segs data = a ++ b ∧ a.flatten = render x)
    (x y : List (Token H.Scopes)) (v : Text) (k : H.Scopes) (p : Position) (h : ts = x ++ .lexeme v k p :: y)
    (hend : ∃ a b, S.segs data = a ++ b ∧ a.flatten = render x ++ v) (c : Cursor) :
    Cursor.moveTo S g c p = .ok (true, ⟨p, p.offset⟩) ∧
    GapBuffer.read S g (Range.new p ⟨p.line, p.offset + (S.segs v).length⟩) = .ok (some v) := by
  obtain ⟨post, hp⟩ := C37_positions_in_buffer S H data hO it it' ts hn hc hcr hb x y v k p h
  refine ⟨(C26_move_to_text S g data c p hg).1 ⟨_, _, hp⟩, ?_⟩
  obtain ⟨a, b, hs, ha⟩ := hend
  have hq : PlaceIn (S.segs data) ⟨p.line, p.offset + (S.segs v).length⟩ (render x ++ v) b.flatten := by
    refine ⟨a, b, hs, ha.symm, rfl, ?_⟩
    have := posAfter_boundary S H data hO it it' ts hn hc hcr hb (x ++ [.lexeme v k p]) y (by rw [h]; simp) a b hs (by rw [ha, render_append]; simp [render])
    rw [← this, posAfter_lexeme, ← C37_token_positions S H data hO it it' ts hn hc x y v k p h]
  obtain ⟨m, h1, h2, _⟩ := (C07_read S g data p _ (by simp [AtOrBefore]) hg).1 _ _ _ _ hp hq
  rw [h1, List.append_cancel_left h2]

/-! ### Examples -/

/-- A highlighter for each syntax: an event after that many characters of each line. -/
def demoHs (y : Nat) : Highlighter := offsetsH [(y, y)]

inductive HighlightSeen where
  | failed (e : ErrKind Nat)
  | tokens (ts : List (Option (Text × Position))) (e : Option Nat)
  deriving DecidableEq

/-- What is seen of highlighting the current buffer after a program: the kind of error, or the tokens with their positions and the error that ended them. -/
def highlightSeen (as : List (Act Nat)) : Option HighlightSeen :=
  match (⟨demoPath [], [], 0, none, none, demoSyn⟩ : Workspace Nat).acts Demo.seg Demo.tight as with
  | .error _ => none
  | .ok (_, w) =>
    match w.currentBufferIter demoHs with
    | .error _ => none
    | .ok (.error .emptyWorkspace) => some (.failed .emptyWorkspace)
    | .ok (.error .missingSyntax) => some (.failed .missingSyntax)
    | .ok (.error (.highlighter e)) => some (.failed (.highlighter (show Nat from e.2)))
    | .ok (.error _) => none
    | .ok (.ok ⟨_, it⟩) =>
      match TokenIter.collect Demo.seg 9 it with
      | .ok (some (ts, e)) => some (.tokens (ts.map (fun t => match t with | .newline => none | .lexeme v _ p => some (v, p))) (show Option Nat from e))
      | _ => none

/-- Nothing is open; a file with syntax 1 is edited; its syntax is taken away; its first line becomes unparsable; its second line. -/
example :
    let o : Act Nat := .openPath 0 demoFs demoFs demoFs (demoPath [0x61, 46, 0x72])
    [highlightSeen [], highlightSeen [o, .cmd (.insert (Demo.s "xy\nz"))], highlightSeen [o, .setSyntax none],
      highlightSeen [o, .cmd (.insert (Demo.s "!"))], highlightSeen [o, .cmd (.insert (Demo.s "b\n!"))]] =
    [some (.failed .emptyWorkspace),
      some (.tokens [some (Demo.s "x", ⟨0, 0⟩), some (Demo.s "y", ⟨0, 1⟩), none, some (Demo.s "z", ⟨1, 0⟩), some (Demo.s "a", ⟨1, 1⟩)] none),
      some (.failed .missingSyntax), some (.failed (.highlighter 1)), some (.tokens [some (Demo.s "b", ⟨0, 0⟩)] (some 1))] := by decide +kernel

/-- The program of the example keeps its syntaxes, and the highlighters keep their contract. -/
example : KeepsSyntaxes ([.openPath 0 demoFs demoFs demoFs (demoPath [0x61, 46, 0x72]), .cmd (.insert (Demo.s "xy"))] : List (Act Nat)) ∧
    ∀ y, OffsetsOk (demoHs y) := by
  refine ⟨?_, fun y => offsetsH_ok _⟩
  intro a ha h
  subst h
  simp at ha

/-- The cursor is moved to the last lexeme above, and the lexeme is read. -/
example : let g := GapBuffer.new Demo.tight 0 (Demo.s "xy\nza")
    Cursor.moveTo Demo.seg g ⟨⟨0, 0⟩, 0⟩ ⟨1, 1⟩ = .ok (true, ⟨⟨1, 1⟩, 1⟩) ∧
    GapBuffer.read Demo.seg g (Range.new ⟨1, 1⟩ ⟨1, 2⟩) = .ok (some (Demo.s "a")) := by decide +kernel

end Scribe.Props
