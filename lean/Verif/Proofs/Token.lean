import Verif.Spec.Token
import Verif.Proofs.LineIterator
/-! # Invariant of the token iterator -/
namespace Scribe.TokenIter
open Spec
variable {S : Segmenter} {H : Highlighter}

theorem fileLines_no_nl {l : Text} (h : '\n' ∉ l) : fileLines l = [l] := by
  induction l with
  | nil => rfl
  | cons c l ih =>
    have h1 : c ≠ '\n' := fun hc => h (by simp [hc])
    rw [fileLines, if_neg h1, ih (fun hm => h (by simp [hm]))]

theorem fileLines_append {l r : Text} (h : '\n' ∉ l) : fileLines (l ++ '\n' :: r) = (l ++ ['\n']) :: fileLines r := by
  induction l with
  | nil => simp [fileLines]
  | cons c l ih =>
    have h1 : c ≠ '\n' := fun hc => h (by simp [hc])
    rw [List.cons_append, fileLines, if_neg h1, ih (fun hm => h (by simp [hm]))]; rfl

theorem render_append {K} (a b : List (Token K)) : render (a ++ b) = render a ++ render b := by
  induction a with
  | nil => rfl
  | cons t a ih => cases t <;> simp [render, ih]

theorem posAfter_newline {K} (a : List (Token K)) : posAfter S.segs (a ++ [.newline]) = ⟨(posAfter S.segs a).line + 1, 0⟩ := by
  simp [posAfter, List.foldl_append]
theorem posAfter_lexeme {K} (a : List (Token K)) (v : Text) (k : K) (p : Position) :
    posAfter S.segs (a ++ [.lexeme v k p]) = ⟨(posAfter S.segs a).line, (posAfter S.segs a).offset + (S.segs v).length⟩ := by
  simp [posAfter, List.foldl_append]
theorem bytesAfter_newline {K} (a : List (Token K)) : bytesAfter (a ++ [.newline]) = 0 := by
  simp [bytesAfter, List.foldl_append]
theorem bytesAfter_lexeme {K} (a : List (Token K)) (v : Text) (k : K) (p : Position) :
    bytesAfter (a ++ [.lexeme v k p]) = bytesAfter a + blen v := by
  simp [bytesAfter, List.foldl_append]

theorem scopeAfter_snoc (es : List (Nat × H.Op)) (e : Nat × H.Op) : scopeAfter H (es ++ [e]) = (H.apply (scopeAfter H es) e.2).1 := by
  simp [scopeAfter, List.foldl_append]

theorem prefix_of_blen {x y u w : Text} (h : x ++ y = u ++ w) (hb : blen x ≤ blen u) : ∃ z, u = x ++ z ∧ y = z ++ w := by
  rcases List.append_eq_append_iff.mp h with ⟨z, h1, h2⟩ | ⟨z, h1, h2⟩
  · exact ⟨z, h1, h2⟩
  · have : blen z = 0 := by rw [h1, blen_append] at hb; omega
    rw [blen_eq_zero] at this
    subst this
    exact ⟨[], by simp [h1], by simpa using h2.symm⟩

/-- What follows the current line: nothing, or a newline and the text the line iterator still holds. -/
inductive Follows (lines : LineIter) (k : Nat) : Text → List Text → Prop
  | none : LineIter.At lines none → Follows lines k [] []
  | some (r : Text) : LineIter.At lines (some (k + 1, r)) → Follows lines k ('\n' :: r) (fileLines r)

/-- Between two lines: line `k` is done. -/
structure Between (it : TokenIter H) (all : List (List (Nat × H.Op))) (pre : List (Token H.Scopes)) (rem : Text) : Prop where
  line : it.currentLine = none
  error : it.error = none
  follows : ∃ todo, Follows it.lines (posAfter S.segs pre).line rem todo ∧
    ∃ evs, all = evs ++ events it.parser todo ∧ evs.length = (posAfter S.segs pre).line + 1 ∧ it.scopes = scopeAfter H evs.flatten

/-- Inside line `k`, before `b`. -/
structure Within (S : Segmenter) (it : TokenIter H) (all : List (List (Nat × H.Op))) (pre : List (Token H.Scopes)) (rem : Text)
    (body nl a b tail : Text) (todo : List Text) (evs : List (List (Nat × H.Op))) (applied : List (Nat × H.Op)) : Prop where
  line : it.currentLine = some (body ++ nl)
  error : it.error = none
  nonl : '\n' ∉ body
  nlCases : nl = [] ∧ tail = [] ∨ nl = ['\n'] ∧ tail ≠ []
  follows : Follows it.lines (posAfter S.segs pre).line tail todo
  rem_ : rem = b ++ tail
  body_ : body = a ++ b
  bytes : bytesAfter pre = blen a
  offset : it.byteOffset = blen a ∨ (b = [] ∧ nl = ['\n'] ∧ it.byteOffset = blen (body ++ nl))
  pos : it.position = posAfter S.segs pre
  all_ : all = evs ++ [applied ++ it.lineEvents] ++ events it.parser todo
  count : evs.length = (posAfter S.segs pre).line
  applied_ : ∀ e ∈ applied, e.1 ≤ it.byteOffset
  scopes : it.scopes = scopeAfter H (evs.flatten ++ applied)
  bounds : ∀ e ∈ it.lineEvents, ∃ x y, body ++ nl = x ++ y ∧ e.1 = blen x

/-- The invariant. -/
def Good (S : Segmenter) (it : TokenIter H) (all : List (List (Nat × H.Op))) (pre : List (Token H.Scopes)) (rem : Text) : Prop :=
  Between (S := S) it all pre rem ∨
    ∃ body nl a b tail todo evs applied, Within S it all pre rem body nl a b tail todo evs applied

/-- The events of a line that decide the scope of what starts at byte `n`: those before the first event after `n`. -/
def scopeAt (H : Highlighter) (all : List (List (Nat × H.Op))) (line n : Nat) : H.Scopes :=
  scopeAfter H ((all.take line).flatten ++ ((all[line]?.getD []).takeWhile fun e => e.1 ≤ n))

def measure (it : TokenIter H) : Nat := it.lineEvents.length + if it.currentLine.isSome then 1 else 0

/-- The bytes of the current line not passed yet, its newline included. -/
def left (it : TokenIter H) : Nat := match it.currentLine with | some l => blen l - it.byteOffset | none => 0

/-- What a lexeme says and what remains. -/
structure Lexed (S : Segmenter) (it : TokenIter H) (it' : TokenIter H) (all : List (List (Nat × H.Op))) (pre : List (Token H.Scopes)) (rem : Text)
    (tok : Token H.Scopes) : Prop where
  ex : ∃ v rem', tok = .lexeme v (scopeAt H all (posAfter S.segs pre).line (bytesAfter pre)) (posAfter S.segs pre) ∧
    rem = v ++ rem' ∧ Good S it' all (pre ++ [tok]) rem' ∧ '\n' ∉ v ∧ (v = [] → left it' = 0 ∧ ∃ r, rem' = '\n' :: r) ∧
    ∀ j, j < blen v → scopeAt H all (posAfter S.segs pre).line (bytesAfter pre + j) = scopeAt H all (posAfter S.segs pre).line (bytesAfter pre)
  less : measure it' < measure it
  short : left it' < left it

theorem scopeAt_eq {all evs : List (List (Nat × H.Op))} {applied rest : List (Nat × H.Op)} {more : List (List (Nat × H.Op))} {n : Nat}
    (h : all = evs ++ [applied ++ rest] ++ more) (ha : ∀ e ∈ applied, e.1 ≤ n) (hr : ∀ e, rest.head? = some e → n < e.1) :
    scopeAfter H (evs.flatten ++ applied) = scopeAt H all evs.length n := by
  unfold scopeAt
  have h1 : all.take evs.length = evs := by rw [h]; simp
  have h2 : all[evs.length]?.getD [] = applied ++ rest := by rw [h]; simp
  rw [h1, h2]
  congr 2
  rw [List.takeWhile_append_of_pos (by simpa using ha)]
  cases rest with
  | nil => simp
  | cons e r =>
    have := hr e rfl
    rw [List.takeWhile_cons_of_neg (by simpa using this)]; simp

theorem buildLoop_spec {all : List (List (Nat × H.Op))} (es : List (Nat × H.Op)) {it : TokenIter H} {pre rem body nl a b tail todo evs applied}
    (h : Within S it all pre rem body nl a b tail todo evs applied) (hes : it.lineEvents = es) :
    ∃ res it', buildLoop S (body ++ nl) (blen body) es it = .ok (res, it') ∧
      match res with
      | .error _ => ∃ e ∈ it.lineEvents, ∃ k, (H.apply k e.2).2.isSome
      | .ok none => Between (S := S) it' all pre rem
      | .ok (some tok) => Lexed S it it' all pre rem tok := by
  have hbl : blen body = blen a + blen b := by rw [h.body_, blen_append]
  induction es generalizing it applied with
  | nil =>
    have hall := h.all_
    rw [hes, List.append_nil] at hall
    have hb : b = [] → Between (S := S) { it with lineEvents := [], currentLine := none } all pre rem := by
      intro hb
      refine ⟨rfl, h.error, todo, ?_, evs ++ [applied], hall, ?_, ?_⟩
      · have := h.follows; rw [h.rem_, hb]; exact this
      · rw [List.length_append, h.count]; rfl
      · have := h.scopes; simpa using this
    rcases h.offset with ho | ⟨ho1, ho2, ho3⟩
    · by_cases hlt : it.byteOffset < blen body
      · have e1 : strSlice (body ++ nl) it.byteOffset (blen body) = .ok b := by
          have := strSlice_append a b nl
          rw [h.body_, ho, blen_append]; exact this
        refine ⟨.ok (some (.lexeme b it.scopes it.position)), { it with lineEvents := [], currentLine := none }, ?_, ?_⟩
        · simp only [buildLoop, if_pos hlt, e1, Except.ok_bind']
        · have hsc : it.scopes = scopeAt H all (posAfter S.segs pre).line (bytesAfter pre) := by
            rw [h.scopes, ← h.count, h.bytes, ← ho]
            exact scopeAt_eq (rest := []) (more := events it.parser todo) (by rw [List.append_nil]; exact hall) h.applied_ (by simp)
          refine ⟨⟨b, tail, by rw [← hsc, ← h.pos], h.rem_, Or.inl ⟨rfl, h.error, todo, ?_, evs ++ [applied], hall, ?_, ?_⟩, fun hm => h.nonl (by rw [h.body_]; simp [hm]), fun hb0 => ?_, ?_⟩, ?_, ?_⟩
          · rw [posAfter_lexeme]; exact h.follows
          · rw [posAfter_lexeme, List.length_append, h.count]; rfl
          · have := h.scopes; simpa using this
          · rw [hb0] at hbl
            have : blen ([] : Text) = 0 := rfl
            omega
          · intro j _
            rw [← hsc, h.scopes, ← h.count, h.bytes, ← ho]
            exact (scopeAt_eq (rest := []) (more := events it.parser todo) (by rw [List.append_nil]; exact hall)
              (fun e he => Nat.le_trans (h.applied_ e he) (Nat.le_add_right _ _)) (by simp)).symm
          · simp [measure, h.line]
          · simp only [left, h.line]; rw [blen_append]; omega
      · refine ⟨.ok none, { it with lineEvents := [], currentLine := none }, ?_, hb ?_⟩
        · simp only [buildLoop, if_neg hlt]
        · rw [← blen_eq_zero]; omega
    · have hlt : ¬ it.byteOffset < blen body := by rw [ho3, blen_append]; omega
      refine ⟨.ok none, { it with lineEvents := [], currentLine := none }, ?_, hb ho1⟩
      simp only [buildLoop, if_neg hlt]
  | cons e es ih =>
    obtain ⟨off, op⟩ := e
    obtain ⟨x, y, hxy, hoff⟩ := h.bounds (off, op) (by rw [hes]; simp)
    simp only at hoff
    have hall := h.all_
    rw [hes] at hall
    have hbounds : ∀ e ∈ es, ∃ x y, body ++ nl = x ++ y ∧ e.1 = blen x := fun e he => h.bounds e (by rw [hes]; simp [he])
    by_cases hgt : off > it.byteOffset
    · -- a lexeme
      have hle : off ≤ blen (body ++ nl) := by rw [hxy, hoff, blen_append]; omega
      have ho : it.byteOffset = blen a := by
        rcases h.offset with ho | ⟨_, _, ho⟩
        · exact ho
        · omega
      -- the value `v`, the new split of the body
      obtain ⟨v, b', hv, hmin, hnew⟩ : ∃ v b', b = v ++ b' ∧ min off (blen body) = blen a + blen v ∧
          (off = blen (a ++ v) ∨ (b' = [] ∧ nl = ['\n'] ∧ off = blen (body ++ nl))) := by
        by_cases hc : off ≤ blen body
        · obtain ⟨z, hz, _⟩ := prefix_of_blen hxy.symm (by omega)
          have : a ++ b = x ++ z := by rw [← h.body_]; exact hz
          obtain ⟨v, hv, hb⟩ := prefix_of_blen this (by omega)
          exact ⟨v, z, hb, by rw [← blen_append, ← hv]; omega, Or.inl (by rw [← hv, hoff])⟩
        · refine ⟨b, [], by simp, by omega, Or.inr ⟨rfl, ?_⟩⟩
          rcases h.nlCases with ⟨h1, _⟩ | ⟨h1, _⟩
          · rw [h1, List.append_nil] at hle; exact absurd hle hc
          · refine ⟨h1, ?_⟩
            rw [h1, blen_append] at hle ⊢
            have : blen ['\n'] = 1 := by decide
            omega
      have e1 : strSlice (body ++ nl) it.byteOffset (min off (blen body)) = .ok v := by
        have := strSlice_append a v (b' ++ nl)
        rw [hmin, ho, h.body_, hv]
        simpa using this
      have hsc : it.scopes = scopeAt H all (posAfter S.segs pre).line (bytesAfter pre) := by
        rw [h.scopes, ← h.count, h.bytes, ← ho]
        exact scopeAt_eq hall h.applied_ (by simpa using hgt)
      cases hap : H.apply it.scopes op with
      | mk sc er =>
        cases er with
        | some er =>
          refine ⟨.error er, { it with
            lineEvents := es, position := ⟨it.position.line, it.position.offset + (S.segs v).length⟩, byteOffset := off, scopes := sc }, ?_,
            (off, op), by rw [hes]; simp, it.scopes, by rw [hap]; rfl⟩
          simp only [buildLoop, if_pos hgt, e1, Except.ok_bind', hap]
        | none =>
          refine ⟨.ok (some (.lexeme v it.scopes it.position)), { it with
            lineEvents := es, position := ⟨it.position.line, it.position.offset + (S.segs v).length⟩, byteOffset := off, scopes := sc }, ?_, ?_⟩
          · simp only [buildLoop, if_pos hgt, e1, Except.ok_bind', hap]
          · refine ⟨⟨v, b' ++ tail, by rw [← hsc, ← h.pos], by rw [h.rem_, hv]; simp, Or.inr ?_, fun hm => h.nonl (by rw [h.body_, hv]; simp [hm]), ?_, ?_⟩, ?_, ?_⟩
            · refine ⟨body, nl, a ++ v, b', tail, todo, evs, applied ++ [(off, op)], ?_⟩
              constructor
              · exact h.line
              · exact h.error
              · exact h.nonl
              · exact h.nlCases
              · rw [posAfter_lexeme]; exact h.follows
              · rfl
              · rw [h.body_, hv]; simp
              · rw [bytesAfter_lexeme, h.bytes, blen_append]
              · exact hnew
              · rw [posAfter_lexeme, ← h.pos]
              · simpa using hall
              · rw [posAfter_lexeme]; exact h.count
              · intro e he
                rcases List.mem_append.mp he with he | he
                · have := h.applied_ e he
                  exact Nat.le_trans this (Nat.le_of_lt hgt)
                · simp at he; subst he; exact Nat.le_refl _
              · show sc = _
                rw [← List.append_assoc, scopeAfter_snoc, ← h.scopes, hap]
              · exact hbounds
            · intro hv0
              simp only [left, h.line]
              rcases hnew with hnew | ⟨hb', hnl, hnew⟩
              · rw [hv0, List.append_nil] at hnew; omega
              · refine ⟨by omega, ?_⟩
                rw [hb', List.nil_append]
                have hf := h.follows
                rcases h.nlCases with ⟨q, _⟩ | ⟨_, q⟩
                · rw [hnl] at q; cases q
                · cases hf with
                  | none _ => exact absurd rfl q
                  | some r _ => exact ⟨r, rfl⟩
            · intro j hj
              rw [← hsc, h.scopes, ← h.count, h.bytes, ← ho]
              refine (scopeAt_eq hall (fun e he => Nat.le_trans (h.applied_ e he) (Nat.le_add_right _ _)) ?_).symm
              intro e he
              cases he
              show it.byteOffset + j < off
              omega
            · simp [measure, h.line, hes]
            · simp only [left, h.line]; omega
    · cases hap : H.apply it.scopes op with
      | mk sc er =>
        cases er with
        | some er =>
          refine ⟨.error er, { it with lineEvents := es, scopes := sc }, ?_, (off, op), by rw [hes]; simp, it.scopes, by rw [hap]; rfl⟩
          simp only [buildLoop, if_neg hgt, hap]
        | none =>
          have hw : Within S { it with lineEvents := es, scopes := sc } all pre rem body nl a b tail todo evs (applied ++ [(off, op)]) := by
            constructor
            · exact h.line
            · exact h.error
            · exact h.nonl
            · exact h.nlCases
            · exact h.follows
            · exact h.rem_
            · exact h.body_
            · exact h.bytes
            · exact h.offset
            · exact h.pos
            · simpa using hall
            · exact h.count
            · intro e he
              rcases List.mem_append.mp he with he | he
              · exact h.applied_ e he
              · simp at he; subst he; exact Nat.le_of_not_lt hgt
            · show sc = _
              rw [← List.append_assoc, scopeAfter_snoc, ← h.scopes, hap]
            · exact hbounds
          obtain ⟨res, it', h1, h2⟩ := ih hw rfl
          refine ⟨res, it', ?_, ?_⟩
          · simp only [buildLoop, if_neg hgt, hap]; exact h1
          · cases res with
            | error er =>
              obtain ⟨e, he, k, hk⟩ := h2
              exact ⟨e, by rw [hes]; exact List.mem_cons_of_mem _ he, k, hk⟩
            | ok o =>
              cases o with
              | none => exact h2
              | some tok => exact ⟨h2.ex, Nat.lt_trans h2.less (by simp [measure, hes]), h2.short⟩

theorem parse_line {it : TokenIter H} {all : List (List (Nat × H.Op))} {k : Nat} {r : Text} {evs : List (List (Nat × H.Op))} (hO : OffsetsOk H)
    (herr : it.error = none) (hat : LineIter.At it.lines (some (k, r))) (hall : all = evs ++ events it.parser (fileLines r))
    (hlen : evs.length = k) (hsc : it.scopes = scopeAfter H evs.flatten) :
    ∃ res it', parseNextLine it = .ok (res, it') ∧
      match res with
      | .error _ => CanFail H
      | .ok () => it'.currentLine.isSome ∧ left it' = blen ((fileLines r).headD []) ∧ ∀ pre, posAfter S.segs pre = ⟨k, 0⟩ → bytesAfter pre = 0 → Good S it' all pre r := by
  have main : ∀ (lines' : LineIter) (body nl tail : Text) (todo : List Text), it.lines.next = .ok (some (k, body ++ nl), lines') →
      '\n' ∉ body → r = body ++ tail → (nl = [] ∧ tail = [] ∨ nl = ['\n'] ∧ tail ≠ []) → Follows lines' k tail todo →
      fileLines r = (body ++ nl) :: todo → ∃ res it', parseNextLine it = .ok (res, it') ∧
      match res with
      | .error _ => CanFail H
      | .ok () => it'.currentLine.isSome ∧ left it' = blen ((fileLines r).headD []) ∧ ∀ pre, posAfter S.segs pre = ⟨k, 0⟩ → bytesAfter pre = 0 → Good S it' all pre r := by
    intro lines' body nl tail todo hn hb hr hnl hf hfl
    rw [hfl] at hall
    cases hp : H.parse it.parser (body ++ nl) with
    | mk p res =>
      cases res with
      | error e =>
        refine ⟨.error e, { it with lines := lines', parser := p }, ?_, Or.inr ⟨_, _, e, by rw [hp]⟩⟩
        simp only [parseNextLine, hn, Except.ok_bind', hp]
      | ok es =>
        refine ⟨.ok (), { it with
          lines := lines', parser := p, lineEvents := es, currentLine := some (body ++ nl), position := ⟨k, 0⟩, byteOffset := 0 }, ?_, rfl, by rw [hfl]; rfl, ?_⟩
        · simp only [parseNextLine, hn, Except.ok_bind', hp]
        · intro pre hpos hbytes
          right
          refine ⟨body, nl, [], body, tail, todo, evs, [], ?_⟩
          constructor
          · rfl
          · exact herr
          · exact hb
          · exact hnl
          · rw [hpos]; exact hf
          · exact hr
          · rfl
          · exact hbytes
          · left; rfl
          · exact hpos.symm
          · rw [hall, events, hp]; simp
          · rw [hpos]; exact hlen
          · simp
          · rw [List.append_nil]; exact hsc
          · exact hO _ _ _ _ hp
  rcases line_cases r with hr | ⟨l, r', hl, rfl⟩
  · obtain ⟨lines', h1, h2⟩ := LineIter.next_last hat hr
    exact main lines' r [] [] [] (by rw [List.append_nil]; exact h1) hr (by simp) (Or.inl ⟨rfl, rfl⟩) (Follows.none h2)
      (by rw [fileLines_no_nl hr]; simp)
  · obtain ⟨lines', h1, h2⟩ := LineIter.next_line hat hl
    exact main lines' l ['\n'] ('\n' :: r') (fileLines r') h1 hl rfl (Or.inr ⟨rfl, by simp⟩) (Follows.some r' h2) (fileLines_append hl)

theorem next_spec {it : TokenIter H} {all : List (List (Nat × H.Op))} {pre rem} (hO : OffsetsOk H) (h : Good S it all pre rem) :
    ∃ o it', next S it = .ok (o, it') ∧
      match o with
      | none => (rem = [] ∧ it'.error = none ∧ it'.currentLine = none ∧ LineIter.At it'.lines none) ∨ (it'.error.isSome ∧ CanFail H)
      | some tok => Lexed S it it' all pre rem tok ∨ (tok = .newline ∧ ∃ rem', rem = '\n' :: rem' ∧
          left it' = blen ((fileLines rem').headD []) ∧ Good S it' all (pre ++ [.newline]) rem') := by
  have between : ∀ it1, buildNextToken S it = .ok (.ok none, it1) → Between (S := S) it1 all pre rem → ∃ o it', next S it = .ok (o, it') ∧
      match o with
      | none => (rem = [] ∧ it'.error = none ∧ it'.currentLine = none ∧ LineIter.At it'.lines none) ∨ (it'.error.isSome ∧ CanFail H)
      | some tok => Lexed S it it' all pre rem tok ∨ (tok = .newline ∧ ∃ rem', rem = '\n' :: rem' ∧
          left it' = blen ((fileLines rem').headD []) ∧ Good S it' all (pre ++ [.newline]) rem') := by
    intro it1 hb hbt
    obtain ⟨todo, hf, evs, hall, hlen, hsc⟩ := hbt.follows
    cases hf with
    | none hat =>
      refine ⟨none, { it1 with lines := it1.lines, currentLine := none }, ?_, Or.inl ⟨rfl, hbt.error, rfl, hat⟩⟩
      simp only [next, hb, Except.ok_bind', parseNextLine, LineIter.next_done hat]
      rfl
    | some r hat =>
      obtain ⟨res, it', h1, h2⟩ := parse_line (S := S) hO hbt.error hat hall hlen hsc
      cases res with
      | error e =>
        refine ⟨none, { it' with error := some e }, ?_, Or.inr ⟨rfl, h2⟩⟩
        simp only [next, hb, Except.ok_bind', h1]
      | ok u =>
        refine ⟨some .newline, it', ?_, Or.inr ⟨rfl, r, rfl, h2.2.1, h2.2.2 _ (posAfter_newline _) (bytesAfter_newline _)⟩⟩
        simp only [next, hb, Except.ok_bind', h1, h2.1, if_true]
  rcases h with h | ⟨body, nl, a, b, tail, todo, evs, applied, h⟩
  · apply between { it with currentLine := none }
    · simp only [buildNextToken, h.line]
    · exact ⟨rfl, h.error, h.follows⟩
  · have heol : endOfLine (body ++ nl) = .ok (blen body) := by
      unfold endOfLine
      rcases h.nlCases with ⟨rfl, _⟩ | ⟨rfl, _⟩
      · rw [List.append_nil, if_neg (fun hg => h.nonl (List.mem_of_getLast? hg))]
      · have : blen ['\n'] = 1 := by decide
        rw [List.getLast?_append, List.getLast?_singleton, Option.some_or, if_pos rfl, subU, blen_append, this, if_pos (by omega)]
        simp
    obtain ⟨res, it1, h1, h2⟩ := buildLoop_spec it.lineEvents h rfl
    have hb : buildNextToken S it = .ok (res, it1) := by
      simp only [buildNextToken, h.line, heol, Except.ok_bind']
      exact h1
    cases res with
    | error e =>
      obtain ⟨x, _, k, hk⟩ := h2
      refine ⟨none, { it1 with error := some e }, ?_, Or.inr ⟨rfl, Or.inl ⟨k, x.2, hk⟩⟩⟩
      simp only [next, hb, Except.ok_bind']
    | ok o =>
      cases o with
      | none => exact between it1 hb h2
      | some tok =>
        refine ⟨some tok, it1, ?_, Or.inl h2⟩
        simp only [next, hb, Except.ok_bind']

/-- Every token of a list is a newline, or a lexeme with the position and scope due after the tokens before it. -/
def TokensOk (S : Segmenter) (H : Highlighter) (all : List (List (Nat × H.Op))) (pre ts : List (Token H.Scopes)) : Prop :=
  ∀ x v k p y, ts = x ++ .lexeme v k p :: y →
    p = posAfter S.segs (pre ++ x) ∧ k = scopeAt H all (posAfter S.segs (pre ++ x)).line (bytesAfter (pre ++ x)) ∧ '\n' ∉ v

theorem TokensOk.cons {all : List (List (Nat × H.Op))} {pre ts : List (Token H.Scopes)} {t : Token H.Scopes}
    (h : ∀ v k p, t = .lexeme v k p → p = posAfter S.segs pre ∧ k = scopeAt H all (posAfter S.segs pre).line (bytesAfter pre) ∧ '\n' ∉ v)
    (h' : TokensOk S H all (pre ++ [t]) ts) : TokensOk S H all pre (t :: ts) := by
  intro x v k p y he
  cases x with
  | nil =>
    simp only [List.nil_append, List.cons.injEq] at he
    rw [List.append_nil]
    exact h v k p he.1
  | cons z x =>
    simp only [List.cons_append, List.cons.injEq] at he
    obtain ⟨rfl, he⟩ := he
    have := h' x v k p y he
    simpa using this

theorem collects_spec {all : List (List (Nat × H.Op))} (hO : OffsetsOk H) (n m : Nat) : ∀ {it : TokenIter H} {pre rem}, Good S it all pre rem →
    countNl rem ≤ n → measure it ≤ m →
    ∃ ts it', Collects S it ts it' ∧ TokensOk S H all pre ts ∧
      ((it'.error = none ∧ render ts = rem) ∨ (it'.error.isSome ∧ CanFail H ∧ render ts <+: rem)) := by
  induction n using Nat.strongRecOn generalizing m with
  | _ n ihn =>
    induction m using Nat.strongRecOn with
    | _ m ihm =>
      intro it pre rem hg hn hm
      obtain ⟨o, it1, h1, h2⟩ := next_spec hO hg
      cases o with
      | none =>
        refine ⟨[], it1, .stop h1, ?_, ?_⟩
        · intro x v k p y he; simp at he
        · rcases h2 with ⟨h2, h3, _⟩ | ⟨h2, h3⟩
          · exact Or.inl ⟨h3, h2.symm⟩
          · exact Or.inr ⟨h2, h3, List.nil_prefix⟩
      | some tok =>
        rcases h2 with h2 | ⟨rfl, rem', h2, _, h3⟩
        · obtain ⟨v, rem', e1, e2, e3, e4, _⟩ := h2.ex
          have hn' : countNl rem' ≤ n := by rw [e2, countNl_append] at hn; omega
          obtain ⟨ts, it', k1, k2, k3⟩ := ihm (measure it1) (Nat.lt_of_lt_of_le h2.less hm) e3 hn' (Nat.le_refl _)
          refine ⟨tok :: ts, it', .next h1 k1, k2.cons ?_, ?_⟩
          · intro v' k p he
            rw [e1] at he
            cases he
            exact ⟨rfl, rfl, e4⟩
          · have hr : render (tok :: ts) = v ++ render ts := by rw [e1]; rfl
            rcases k3 with ⟨k3, k4⟩ | ⟨k3, k4, k5⟩
            · exact Or.inl ⟨k3, by rw [hr, k4, e2]⟩
            · refine Or.inr ⟨k3, k4, ?_⟩
              rw [hr, e2]; exact (List.prefix_append_right_inj v).mpr k5
        · have hn' : countNl rem' + 1 ≤ n := by rw [h2, countNl_nl] at hn; exact hn
          obtain ⟨ts, it', k1, k2, k3⟩ := ihn (countNl rem') (by omega) (measure it1) h3 (Nat.le_refl _) (Nat.le_refl _)
          refine ⟨.newline :: ts, it', .next h1 k1, k2.cons ?_, ?_⟩
          · intro v' k p he; cases he
          · rcases k3 with ⟨k3, k4⟩ | ⟨k3, k4, k5⟩
            · exact Or.inl ⟨k3, by rw [render, k4, h2]⟩
            · refine Or.inr ⟨k3, k4, ?_⟩
              rw [render, h2]; exact (List.prefix_append_right_inj ['\n']).mpr k5

theorem new_spec (hO : OffsetsOk H) (data : Text) :
    (∃ e, new H data = .ok (.error e) ∧ CanFail H) ∨
    ∃ it ts it', new H data = .ok (.ok it) ∧ Collects S it ts it' ∧
      TokensOk S H (events H.parser (fileLines data)) [] ts ∧
      ((it'.error = none ∧ render ts = data) ∨ (it'.error.isSome ∧ CanFail H ∧ render ts <+: data)) := by
  obtain ⟨res, it', h1, h2⟩ := parse_line (S := S) (all := events H.parser (fileLines data)) (evs := []) (k := 0) (r := data)
    (it := {
      scopes := H.scopes, parser := H.parser, lines := LineIter.new data, currentLine := none, byteOffset := 0, position := ⟨0, 0⟩, lineEvents := [], error := none }) hO rfl (LineIter.at_new data) rfl rfl rfl
  cases res with
  | error e =>
    left
    refine ⟨e, ?_, h2⟩
    simp only [new, h1, Except.ok_bind']
  | ok u =>
    right
    obtain ⟨ts, it2, k1, k2, k3⟩ := collects_spec hO _ _ (h2.2.2 [] rfl rfl) (Nat.le_refl _) (Nat.le_refl _)
    refine ⟨it', ts, it2, ?_, k1, k2, k3⟩
    simp only [new, h1, Except.ok_bind']

theorem Collects.functional {it : TokenIter H} {ts ts' : List (Token H.Scopes)} {a b : TokenIter H} (h : Collects S it ts a) (h' : Collects S it ts' b) :
    ts = ts' ∧ a = b := by
  induction h generalizing ts' with
  | stop h =>
    cases h' with
    | stop h' => rw [h] at h'; cases h'; exact ⟨rfl, rfl⟩
    | next h' _ => rw [h] at h'; cases h'
  | next h _ ih =>
    cases h' with
    | stop h' => rw [h] at h'; cases h'
    | next h' h'' =>
      rw [h] at h'; cases h'
      obtain ⟨rfl, rfl⟩ := ih h''
      exact ⟨rfl, rfl⟩

end Scribe.TokenIter
