import Verif.Spec.MachineRest
import Verif.Proofs.Machine
import Verif.Proofs.TokenStream
import Verif.Proofs.Workspace
/-! Iterators and workspaces compute in machine arithmetic what they compute with natural numbers. -/
namespace Scribe.Machine
open Spec
variable [Word] {M : Mode}

/-! ## Line iterators -/

theorem lineScan_eq (t : Text) : ∀ {e : Nat}, e + blen t < W → lineScan M t e = .ok (LineIter.scan t e) := by
  induction t with
  | nil => intro e _; rfl
  | cons c t ih =>
    intro e h
    rw [blen_cons] at h
    rw [lineScan, LineIter.scan, addW_ok (by omega)]
    by_cases hc : c = '\n'
    · simp only [Except.ok_bind', if_pos hc]; rfl
    · simp only [Except.ok_bind', if_neg hc]; exact ih (by omega)

/-- The iterator is over a text that fits in memory. -/
structure LFits (it : LineIter) : Prop where
  data : blen it.data ≤ maxLen
  here : ∃ st, LineIter.At it st ∧ ∀ k r, st = some (k, r) → k + blen r ≤ maxLen

theorem lfits_new {t : Text} (h : blen t ≤ maxLen) : LFits (LineIter.new t) :=
  ⟨h, _, LineIter.at_new t, by intro k r hs; cases hs; simpa using h⟩

theorem lineNext_eq {it : LineIter} (h : LFits it) : lineNext M it = it.next := by
  have hW := W_eq
  have hd := h.data
  obtain ⟨st, h1, h2⟩ := h.here
  cases h1 with
  | done hd => simp only [lineNext, LineIter.next, hd, if_true]
  | at_ x r hdn he hl =>
    have hk := h2 _ _ rfl
    have e1 : strFrom it.data it.lineEnd = .ok r := by rw [he, hl]; exact strFrom_append _ _
    rw [he, blen_append] at hd
    have e2 : lineScan M r it.lineEnd = .ok (LineIter.scan r it.lineEnd) := lineScan_eq r (by omega)
    unfold lineNext LineIter.next
    simp only [e1, e2, Except.ok_bind', addW_ok (M := M) (a := it.lineNumber) (b := 1) (by omega)]

theorem lfits_next {it it' : LineIter} {o : Option (Nat × Text)} (h : LFits it) (hn : it.next = .ok (o, it')) :
    LFits it' ∧ ∀ k l, o = some (k, l) → blen l ≤ maxLen := by
  have hsame : it'.data = it.data := by
    unfold LineIter.next at hn
    split at hn
    · cases hn; rfl
    · obtain ⟨rest, _, hn⟩ := bind_ok hn
      obtain ⟨line, _, hn⟩ := bind_ok hn
      split at hn <;> · cases hn; rfl
  have hd := h.data
  obtain ⟨st, h1, h2⟩ := h.here
  cases st with
  | none =>
    rw [LineIter.next_done h1] at hn
    obtain ⟨rfl, rfl⟩ := Prod.mk.inj (Except.ok.inj hn)
    exact ⟨h, by intro k l hs; cases hs⟩
  | some st =>
    obtain ⟨k, r⟩ := st
    have hk := h2 _ _ rfl
    rcases line_cases r with hr | ⟨l, r', hl, rfl⟩
    · obtain ⟨lines', k1, k2⟩ := LineIter.next_last h1 hr
      rw [k1] at hn
      obtain ⟨rfl, rfl⟩ := Prod.mk.inj (Except.ok.inj hn)
      exact ⟨⟨hsame ▸ hd, _, k2, by intro k l hs; cases hs⟩, by intro k' l hs; cases hs; omega⟩
    · obtain ⟨lines', k1, k2⟩ := LineIter.next_line h1 hl
      rw [k1] at hn
      obtain ⟨rfl, rfl⟩ := Prod.mk.inj (Except.ok.inj hn)
      have e : blen ('\n' :: r') = 1 + blen r' := by rw [blen_cons]; rfl
      have e' : blen ['\n'] = 1 := by decide
      rw [blen_append, e] at hk
      refine ⟨⟨hsame ▸ hd, _, k2, ?_⟩, ?_⟩
      · intro k' l' hs; cases hs; omega
      · intro k' l' hs; cases hs; rw [blen_append, e']; omega

theorem lineRun_eq (n : Nat) : ∀ {it : LineIter}, LFits it → lineRun M n it = LineIter.run n it := by
  induction n with
  | zero => intros; rfl
  | succ n ih =>
    intro it h
    rw [lineRun, LineIter.run, lineNext_eq h]
    cases hn : it.next with
    | error e => rfl
    | ok x =>
      obtain ⟨o, it'⟩ := x
      simp only [Except.ok_bind']
      rw [ih (lfits_next h hn).1]

/-! ## Token iterators -/

section Tokens
variable {S : Segmenter} {H : Highlighter}

theorem strSplit_blen (t : Text) : ∀ {i : Nat} {a b : Text}, strSplit t i = .ok (a, b) → blen a = i ∧ t = a ++ b := by
  induction t with
  | nil =>
    intro i a b h
    cases i with
    | zero => rw [strSplit] at h; cases h; exact ⟨rfl, rfl⟩
    | succ i => rw [strSplit] at h; cases h
  | cons c t ih =>
    intro i a b h
    cases i with
    | zero => rw [strSplit] at h; cases h; exact ⟨rfl, rfl⟩
    | succ i =>
      rw [strSplit] at h
      split at h
      · obtain ⟨⟨a', b'⟩, h1, h2⟩ := bind_ok h
        cases h2
        obtain ⟨e1, e2⟩ := ih h1
        rw [blen_cons, e2]
        exact ⟨by omega, rfl⟩
      · cases h

theorem strSlice_blen {t v : Text} {i j : Nat} (h : strSlice t i j = .ok v) : i + blen v = j := by
  unfold strSlice at h
  obtain ⟨⟨a, b⟩, h1, h2⟩ := bind_ok h
  unfold strFrom at h2
  obtain ⟨⟨c, d⟩, h3, h4⟩ := bind_ok h2
  cases h4
  obtain ⟨e1, -⟩ := strSplit_blen _ h1
  obtain ⟨e2, e3⟩ := strSplit_blen _ h3
  rw [← e1, ← e2, e3, blen_append]

/-- The counters of a token iterator. -/
structure TFits (it : TokenIter H) : Prop where
  lines : LFits it.lines
  pos : it.position.offset ≤ it.byteOffset
  line : ∀ l, it.currentLine = some l → blen l ≤ maxLen

theorem buildLoop_eq (line : Text) (eol : Nat) (es : List (Nat × H.Op)) : ∀ {it : TokenIter H}, it.position.offset ≤ it.byteOffset →
    eol < W → buildLoop M S line eol es it = TokenIter.buildLoop S line eol es it := by
  induction es with
  | nil => intros; rfl
  | cons e es ih =>
    intro it hp hb
    obtain ⟨off, op⟩ := e
    rw [buildLoop, TokenIter.buildLoop]
    by_cases hgt : off > it.byteOffset
    · simp only [if_pos hgt]
      cases hv : strSlice line it.byteOffset (min off eol) with
      | error e => rfl
      | ok v =>
        have h1 := strSlice_blen hv
        have h2 := length_segs_blen (S := S) v
        simp only [Except.ok_bind']
        rw [addW_ok (by omega)]
        rfl
    · simp only [if_neg hgt]
      cases hap : H.apply it.scopes op with
      | mk sc er =>
        cases er with
        | some er => rfl
        | none => exact ih (it := { it with lineEvents := es, scopes := sc }) hp hb

theorem buildLoop_fits (line : Text) (eol : Nat) (es : List (Nat × H.Op)) : ∀ {it it' : TokenIter H} {res}, TFits it →
    TokenIter.buildLoop S line eol es it = .ok (res, it') → TFits it' := by
  induction es with
  | nil =>
    intro it it' res h hb
    rw [TokenIter.buildLoop] at hb
    split at hb
    · obtain ⟨v, _, hb⟩ := bind_ok hb
      cases hb; exact ⟨h.lines, h.pos, by intro l hl; cases hl⟩
    · cases hb; exact ⟨h.lines, h.pos, by intro l hl; cases hl⟩
  | cons e es ih =>
    intro it it' res h hb
    obtain ⟨off, op⟩ := e
    rw [TokenIter.buildLoop] at hb
    dsimp only at hb
    split at hb
    · next hgt =>
      obtain ⟨v, hv, hb⟩ := bind_ok hb
      have h1 := strSlice_blen hv
      have h2 := length_segs_blen (S := S) v
      have h3 := h.pos
      have hp : it.position.offset + (S.segs v).length ≤ off := by omega
      split at hb <;> · cases hb; exact ⟨h.lines, hp, h.line⟩
    · split at hb
      · cases hb; exact ⟨h.lines, h.pos, h.line⟩
      · exact ih (it := { it with lineEvents := es, scopes := _ }) ⟨h.lines, h.pos, h.line⟩ hb

theorem parseNextLine_eq {it : TokenIter H} (h : LFits it.lines) : parseNextLine M it = it.parseNextLine := by
  rw [parseNextLine, TokenIter.parseNextLine, lineNext_eq h]; rfl

theorem parseNextLine_fits {it it' : TokenIter H} {res} (h : TFits it) (hp : it.parseNextLine = .ok (res, it')) : TFits it' := by
  unfold TokenIter.parseNextLine at hp
  obtain ⟨⟨o, lines⟩, h1, hp⟩ := bind_ok hp
  obtain ⟨k1, k2⟩ := lfits_next h.lines h1
  cases o with
  | none => cases hp; exact ⟨k1, h.pos, by intro l hl; cases hl⟩
  | some x =>
    obtain ⟨k, l⟩ := x
    dsimp only at hp
    split at hp
    · cases hp; exact ⟨k1, h.pos, h.line⟩
    · cases hp
      exact ⟨k1, Nat.le_refl 0, by intro l' hl; cases hl; exact k2 _ _ rfl⟩

theorem endOfLine_eq {line : Text} : endOfLine M line = TokenIter.endOfLine line := by
  unfold endOfLine TokenIter.endOfLine
  split
  · next hl =>
    have hn : line ≠ [] := by rintro rfl; cases hl
    obtain ⟨c, cs, rfl⟩ := List.exists_cons_of_ne_nil hn
    have h1 : 1 ≤ blen (c :: cs) := by
      have := Char.utf8Size_pos c
      rw [blen_cons]; omega
    unfold subW subU; rw [if_pos h1, if_pos h1]
  · rfl

theorem endOfLine_le {line : Text} {eol : Nat} (h : TokenIter.endOfLine line = .ok eol) : eol ≤ blen line := by
  unfold TokenIter.endOfLine at h
  split at h
  · unfold subU at h
    split at h
    · cases h; omega
    · cases h
  · cases h; exact Nat.le_refl _

theorem tokenNext_eq {it : TokenIter H} (h : TFits it) : tokenNext M S it = it.next S := by
  have hW := W_eq
  have e : buildNextToken M S it = it.buildNextToken S := by
    unfold buildNextToken TokenIter.buildNextToken
    cases hc : it.currentLine with
    | none => rfl
    | some l =>
      dsimp only
      rw [endOfLine_eq]
      cases he : TokenIter.endOfLine l with
      | error e => rfl
      | ok eol =>
        refine buildLoop_eq _ _ _ h.pos ?_
        have hl := h.line _ hc
        have := endOfLine_le he
        omega
  unfold tokenNext TokenIter.next
  rw [e]
  cases hb : it.buildNextToken S with
  | error e => rfl
  | ok x =>
    obtain ⟨res, it1⟩ := x
    simp only [Except.ok_bind']
    cases res with
    | error e => rfl
    | ok o =>
      cases o with
      | some t => rfl
      | none =>
        have hf : TFits it1 := by
          unfold TokenIter.buildNextToken at hb
          split at hb
          · obtain ⟨eol, _, hb⟩ := bind_ok hb
            exact buildLoop_fits _ _ _ h hb
          · cases hb; exact ⟨h.lines, h.pos, by intro l hl; cases hl⟩
        dsimp only
        rw [parseNextLine_eq hf.lines]
        rfl

theorem tokenNext_fits {it it' : TokenIter H} {o} (h : TFits it) (hn : it.next S = .ok (o, it')) : TFits it' := by
  unfold TokenIter.next at hn
  obtain ⟨⟨res, it1⟩, hb, hn⟩ := bind_ok hn
  have hf : TFits it1 := by
    unfold TokenIter.buildNextToken at hb
    split at hb
    · obtain ⟨eol, _, hb⟩ := bind_ok hb
      exact buildLoop_fits _ _ _ h hb
    · cases hb; exact ⟨h.lines, h.pos, by intro l hl; cases hl⟩
  cases res with
  | error e => cases hn; exact ⟨hf.lines, hf.pos, hf.line⟩
  | ok o =>
    cases o with
    | some t => cases hn; exact hf
    | none =>
      obtain ⟨⟨res, it2⟩, hp, hn⟩ := bind_ok hn
      have hf2 := parseNextLine_fits hf hp
      cases res with
      | error e => cases hn; exact ⟨hf2.lines, hf2.pos, hf2.line⟩
      | ok u => cases hn; exact hf2

theorem tokenNew_eq {data : Text} (h : blen data ≤ maxLen) : tokenNew M H data = TokenIter.new H data := by
  unfold tokenNew TokenIter.new
  dsimp only
  rw [parseNextLine_eq (lfits_new h)]
  rfl

theorem tokenNew_fits {data : Text} {it : TokenIter H} (h : blen data ≤ maxLen) (hn : TokenIter.new H data = .ok (.ok it)) : TFits it := by
  unfold TokenIter.new at hn
  obtain ⟨⟨res, it1⟩, hp, hn⟩ := bind_ok hn
  have := parseNextLine_fits (it := {
    scopes := H.scopes, parser := H.parser, lines := LineIter.new data, currentLine := none, byteOffset := 0
    position := ⟨0, 0⟩, lineEvents := [], error := none }) ⟨lfits_new h, Nat.le_refl 0, by intro l hl; cases hl⟩ hp
  cases res with
  | error e => cases hn
  | ok u => cases hn; exact this

theorem tokenNexts_eq (n : Nat) : ∀ {it : TokenIter H}, TFits it → tokenNexts M S n it = it.nexts S n := by
  induction n with
  | zero => intros; rfl
  | succ n ih =>
    intro it h
    rw [tokenNexts, TokenIter.nexts, tokenNext_eq h]
    cases h1 : it.next S with
    | error e => rfl
    | ok x =>
      obtain ⟨o, it'⟩ := x
      simp only [Except.ok_bind']
      rw [ih (tokenNext_fits h h1)]

end Tokens

/-! ## Workspaces -/

section Workspaces
variable {σ : Type} {A : Alloc}

theorem addBuffer_eq {w : Workspace σ} (b : FileBuf σ) (h1 : w.nextId + 1 < W) (h2 : ∀ i, w.index = some i → i + 1 < W) :
    addBuffer M A w b = w.addBuffer A b := by
  unfold addBuffer Workspace.addBuffer
  rw [addW_ok h1]
  simp only [Except.ok_bind']
  cases hi : w.index with
  | none => rfl
  | some i => simp only [addW_ok (h2 i hi)]; rfl

theorem index_lt {w : Workspace σ} {d : Desk σ} (h : Workspace.Rel A w d) : ∀ i, w.index = some i → i < w.buffers.length ∧ w.buffers.length = d.tabs.items.length := by
  intro i hi
  cases h with
  | empty _ _ h => rw [h] at hi; cases hi
  | sel a c z h1 _ hb h => rw [h] at hi; cases hi; rw [hb, h1]; simp

theorem checkIn_length {w w' : Workspace σ} (h : w.checkIn = .ok w') : w'.buffers.length = w.buffers.length := by
  unfold Workspace.checkIn at h
  split at h
  · cases h; rfl
  · split at h
    · cases h
    · split at h
      · cases h
      · cases h; simp

theorem select_missing {w w1 : Workspace σ} {fs : Fs} {p : Path} (h : w.selectBufferByPath A fs p = .ok (false, w1)) : w1 = w := by
  unfold Workspace.selectBufferByPath at h
  split at h
  · cases h; rfl
  · split at h
    · cases h
    · split at h
      · next i hi =>
        unfold Workspace.selectBuffer at h
        obtain ⟨w2, h1, h2⟩ := bind_ok h
        have hlt : i < w2.buffers.length := by
          rw [checkIn_length h1]
          exact (List.findIdx?_eq_some_iff_findIdx_eq.mp hi).1
        unfold Workspace.checkOut at h2
        rw [List.getElem?_eq_getElem hlt] at h2
        cases h2
      · cases h; rfl

theorem wsCall_eq {w : Workspace σ} {d : Desk σ} (h : Workspace.Rel A w d) (hd : d.tabs.items.length ≤ d.nextId) (c : Workspace.Call σ) (hn : d.nextId + adds c < W) :
    wsCall M A w c = w.call A c := by
  have hid : w.nextId = d.nextId := by cases h <;> assumption
  have hi := index_lt h
  cases c with
  | add b =>
    have hn : d.nextId + 1 < W := hn
    rw [wsCall, Workspace.call, addBuffer_eq b (by omega) (fun i e => by have := hi i e; omega)]
  | openPath clock f0 f1 f2 p =>
    have hn : d.nextId + 1 < W := hn
    rw [wsCall, Workspace.call, openBuffer, Workspace.openBuffer]
    cases hs : Workspace.selectBufferByPath A w f0 p with
    | error e => rfl
    | ok x =>
      obtain ⟨found, w1⟩ := x
      simp only [Except.ok_bind']
      cases found with
      | true => rfl
      | false =>
        have hw : w1 = w := select_missing hs
        subst hw
        cases (FileBuf.fromFile A clock f1 f2 p : Option (FileBuf σ)) with
        | none => rfl
        | some b => simp only [addBuffer_eq b (by omega : w1.nextId + 1 < W) (fun i e => by have := hi i e; omega)]
  | close => rfl
  | next =>
    have hn : d.nextId < W := hn
    rw [wsCall, Workspace.call, nextBuffer, Workspace.nextBuffer]
    cases hx : w.index with
    | none => rfl
    | some i =>
      have := hi i hx
      simp only [subW, subU, if_pos (show 1 ≤ w.buffers.length by omega), Except.ok_bind', addW_ok (M := M) (a := i) (b := 1) (by omega)]
  | previous =>
    rw [wsCall, Workspace.call, previousBuffer, Workspace.previousBuffer]
    cases hx : w.index with
    | none => rfl
    | some i =>
      have := hi i hx
      by_cases h0 : i > 0
      · simp only [if_pos h0, subW, if_pos (show 1 ≤ i from h0), Except.ok_bind']
      · simp only [if_neg h0, subW, subU, if_pos (show 1 ≤ w.buffers.length by omega), Except.ok_bind']
  | edit f => rfl
  | updateSyntax => rfl

theorem desk_call (s : Syntaxes σ) {d : Desk σ} (c : Workspace.Call σ) (hd : d.tabs.items.length ≤ d.nextId) :
    (d.call A s c).2.tabs.items.length ≤ (d.call A s c).2.nextId ∧ (d.call A s c).2.nextId ≤ d.nextId + adds c := by
  have hadd : ∀ (x : FileBuf σ), (d.tabs.add x).items.length ≤ d.nextId + 1 := by
    intro x
    unfold Tabs.add
    split
    · simp
    · simp only [List.length_append, List.length_cons, List.length_take, List.length_drop]; omega
  cases c with
  | add b => exact ⟨hadd _, Nat.le_refl _⟩
  | openPath clock f0 f1 f2 p =>
    unfold Desk.call
    dsimp only
    split
    · exact ⟨hd, Nat.le_succ _⟩
    · split
      · exact ⟨hadd _, Nat.le_refl _⟩
      · exact ⟨hd, Nat.le_succ _⟩
  | close =>
    refine ⟨?_, Nat.le_refl _⟩
    simp only [Desk.call, Tabs.close, List.length_append, List.length_take, List.length_drop]; omega
  | next => exact ⟨hd, Nat.le_refl _⟩
  | previous => exact ⟨hd, Nat.le_refl _⟩
  | edit f => exact ⟨by simp only [Desk.call, Tabs.edit, List.length_modify]; exact hd, Nat.le_refl _⟩
  | updateSyntax => exact ⟨by simp only [Desk.call, Tabs.edit, List.length_modify]; exact hd, Nat.le_refl _⟩

theorem wsCalls_eq (cs : List (Workspace.Call σ)) : ∀ {w : Workspace σ} {d : Desk σ}, Workspace.Rel A w d → d.tabs.items.length ≤ d.nextId →
    d.nextId + (cs.map adds).sum < W → wsCalls M A w cs = w.calls A cs := by
  induction cs with
  | nil => intros; rfl
  | cons c cs ih =>
    intro w d h hd hn
    rw [List.map_cons, List.sum_cons] at hn
    rw [wsCalls, Workspace.calls, wsCall_eq h hd c (by omega)]
    obtain ⟨w1, e1, e2, _⟩ := h.call c
    obtain ⟨k1, k2⟩ := desk_call (A := A) w.syntaxes c hd
    simp only [e1, Except.ok_bind']
    exact ih e2 k1 (by omega)

/-! The last buffer with an id of its own. -/

theorem addBuffer_overflow {w : Workspace σ} (b : FileBuf σ) (h : w.nextId + 1 = W) : addBuffer .checked A w b = .error .overflow := by
  unfold addBuffer addW
  rw [if_neg (by omega)]
  rfl

theorem select_nextId (w : Workspace σ) (m i : Nat) : Workspace.selectBuffer A { w with nextId := m } i =
    (Workspace.selectBuffer A w i).map fun x => (x.1, { x.2 with nextId := m }) := by
  unfold Workspace.selectBuffer Workspace.checkIn
  dsimp only
  split
  · simp only [Except.ok_bind', Workspace.checkOut]; split <;> rfl
  · split
    · rfl
    · split
      · rfl
      · simp only [Except.ok_bind', Workspace.checkOut]; split <;> rfl

theorem addSyntax_nextId (w : Workspace σ) (m : Nat) : Workspace.addSyntax { w with nextId := m } = { w.addSyntax with nextId := m } := by
  unfold Workspace.addSyntax
  dsimp only
  split
  · next hc =>
    split
    · simp only [Workspace.updateCurrentSyntax, hc]
    · rfl
  · rfl

theorem addBuffer_wraps {w : Workspace σ} (b : FileBuf σ) (h : w.nextId + 1 = W) (h2 : ∀ i, w.index = some i → i + 1 < W) :
    addBuffer .wrapping A w b = (w.addBuffer A b).map fun w => { w with nextId := 0 } := by
  unfold addBuffer Workspace.addBuffer
  have e : addW .wrapping w.nextId 1 = .ok 0 := by
    unfold addW; rw [if_neg (by omega), h, Nat.mod_self]
  rw [e]
  simp only [Except.ok_bind']
  have main : ∀ t, (do
      let buffers ← Workspace.vecInsert w.buffers t { b with id := some w.nextId }
      let x ← Workspace.selectBuffer A { w with nextId := 0, buffers := buffers } t
      pure x.2.addSyntax : R (Workspace σ)) = (do
      let buffers ← Workspace.vecInsert w.buffers t { b with id := some w.nextId }
      let x ← Workspace.selectBuffer A { w with nextId := w.nextId + 1, buffers := buffers } t
      pure x.2.addSyntax : R (Workspace σ)).map fun w => { w with nextId := 0 } := by
    intro t
    cases Workspace.vecInsert w.buffers t { b with id := some w.nextId } with
    | error e => rfl
    | ok bs =>
      simp only [Except.ok_bind']
      rw [select_nextId { w with buffers := bs } 0, select_nextId { w with buffers := bs } (w.nextId + 1)]
      cases Workspace.selectBuffer A { w with buffers := bs } t with
      | error e => rfl
      | ok x => simp only [Except.map, Except.ok_bind', addSyntax_nextId]; rfl
  cases hi : w.index with
  | none => rw [hi] at main; exact main 0
  | some i =>
    rw [hi] at main
    simp only [addW_ok (h2 i hi), Except.ok_bind']
    exact main (i + 1)

end Workspaces
end Scribe.Machine
