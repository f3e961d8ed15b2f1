import Verif.Proofs.Token
/-! # The whole token stream: its length, its end, and calls after an error -/
namespace Scribe.TokenIter
open Spec
variable {S : Segmenter} {H : Highlighter}

theorem fileLines_flatten (t : Text) : (fileLines t).flatten = t := by
  induction t using lines_induction with
  | h1 l hl => rw [fileLines_no_nl hl]; simp
  | h2 l r hl ih => rw [fileLines_append hl]; simp [ih]

theorem fileLines_tail_append {v r : Text} (h : '\n' ∉ v) : (fileLines (v ++ r)).tail = (fileLines r).tail := by
  induction v with
  | nil => rfl
  | cons c v ih =>
    have h1 : c ≠ '\n' := fun hc => h (by simp [hc])
    rw [List.cons_append, fileLines, if_neg h1, ← ih (fun hm => h (by simp [hm]))]
    cases fileLines (v ++ r) <;> rfl

/-- The tokens still possible in the text after the current line. -/
def later (rem : Text) : Nat := blen (fileLines rem).tail.flatten + countNl rem

theorem later_lexeme {v r : Text} (h : '\n' ∉ v) : later (v ++ r) = later r := by
  unfold later
  rw [fileLines_tail_append h, countNl_append, countNl_zero h]; omega

theorem later_newline (r : Text) : later ('\n' :: r) = blen ((fileLines r).headD []) + later r + 1 := by
  have h1 : fileLines ('\n' :: r) = ['\n'] :: fileLines r := fileLines_append (l := []) (by simp)
  have h2 : blen r = blen ((fileLines r).headD []) + blen (fileLines r).tail.flatten := by
    rw [← blen_append]
    conv => lhs; rw [← fileLines_flatten r]
    cases fileLines r <;> rfl
  unfold later
  rw [h1, countNl_nl, List.tail_cons, fileLines_flatten]
  omega

theorem collects_length {all : List (List (Nat × H.Op))} (hO : OffsetsOk H) {it it' : TokenIter H} {ts : List (Token H.Scopes)}
    (hc : Collects S it ts it') : ∀ {pre rem}, Good S it all pre rem → ts.length ≤ left it + later rem := by
  induction hc with
  | stop _ => intros; simp
  | @next it it1 it' t ts h _ ih =>
    intro pre rem hg
    obtain ⟨o, it2, h1, h2⟩ := next_spec hO hg
    rw [h] at h1
    obtain ⟨rfl, rfl⟩ := Prod.mk.inj (Except.ok.inj h1)
    rcases h2 with h2 | ⟨rfl, rem', h3, h4, h5⟩
    · obtain ⟨v, rem', _, e2, e3, e4, _⟩ := h2.ex
      have := ih e3
      have hs := h2.short
      rw [e2, later_lexeme e4, List.length_cons]; omega
    · have := ih h5
      rw [h3, later_newline, List.length_cons]; omega

theorem collects_empty {all : List (List (Nat × H.Op))} (hO : OffsetsOk H) {it it' : TokenIter H} {ts : List (Token H.Scopes)}
    (hc : Collects S it ts it') : ∀ {pre rem}, Good S it all pre rem → ∀ x k p y, ts = x ++ .lexeme [] k p :: y →
      (∃ y', y = .newline :: y') ∨ (y = [] ∧ it'.error.isSome) := by
  induction hc with
  | stop _ => intro pre rem _ x k p y h; simp at h
  | @next it it1 it' t ts h hrest ih =>
    intro pre rem hg x k p y he
    obtain ⟨o, it2, h1, h2⟩ := next_spec hO hg
    rw [h] at h1
    obtain ⟨rfl, rfl⟩ := Prod.mk.inj (Except.ok.inj h1)
    cases x with
    | cons u x =>
      simp only [List.cons_append, List.cons.injEq] at he
      obtain ⟨rfl, he⟩ := he
      rcases h2 with h2 | ⟨rfl, rem', h3, h4, h5⟩
      · obtain ⟨v, rem', _, _, e3, _⟩ := h2.ex
        exact ih e3 x k p y he
      · exact ih h5 x k p y he
    | nil =>
      simp only [List.nil_append, List.cons.injEq] at he
      obtain ⟨rfl, rfl⟩ := he
      rcases h2 with h2 | ⟨h2, _⟩
      · obtain ⟨v, rem', e1, e2, e3, _, e5, _⟩ := h2.ex
        obtain ⟨rfl, rfl, rfl⟩ := Token.lexeme.inj e1
        have hz := (e5 rfl).1
        have hs := h2.short
        obtain ⟨o, it3, k1, k2⟩ := next_spec hO e3
        cases hrest with
        | stop hr =>
          rw [hr] at k1
          obtain ⟨rfl, rfl⟩ := Prod.mk.inj (Except.ok.inj k1)
          rcases k2 with ⟨k2, _⟩ | ⟨k2, _⟩
          · obtain ⟨r, hr⟩ := (e5 rfl).2
            rw [hr] at k2; cases k2
          · exact Or.inr ⟨rfl, k2⟩
        | next hr _ =>
          rw [hr] at k1
          obtain ⟨rfl, rfl⟩ := Prod.mk.inj (Except.ok.inj k1)
          rcases k2 with k2 | ⟨rfl, _⟩
          · have := k2.short; omega
          · exact Or.inl ⟨_, rfl⟩
      · cases h2

theorem collects_scopes {all : List (List (Nat × H.Op))} (hO : OffsetsOk H) {it it' : TokenIter H} {ts : List (Token H.Scopes)}
    (hc : Collects S it ts it') : ∀ {pre rem}, Good S it all pre rem → ∀ x v k p y, ts = x ++ .lexeme v k p :: y →
      ∀ j, j < blen v → k = scopeAt H all (posAfter S.segs (pre ++ x)).line (bytesAfter (pre ++ x) + j) := by
  induction hc with
  | stop _ => intro pre rem _ x v k p y h; simp at h
  | @next it it1 it' t ts h hrest ih =>
    intro pre rem hg x v k p y he
    obtain ⟨o, it2, h1, h2⟩ := next_spec hO hg
    rw [h] at h1
    obtain ⟨rfl, rfl⟩ := Prod.mk.inj (Except.ok.inj h1)
    cases x with
    | cons u x =>
      simp only [List.cons_append, List.cons.injEq] at he
      obtain ⟨rfl, he⟩ := he
      have e : pre ++ t :: x = pre ++ [t] ++ x := by simp
      rw [e]
      rcases h2 with h2 | ⟨rfl, rem', h3, h4, h5⟩
      · obtain ⟨v', rem', _, _, e3, _⟩ := h2.ex
        exact ih e3 x v k p y he
      · exact ih h5 x v k p y he
    | nil =>
      simp only [List.nil_append, List.cons.injEq] at he
      obtain ⟨rfl, rfl⟩ := he
      rcases h2 with h2 | ⟨h2, _⟩
      · obtain ⟨v', rem', e1, _, _, _, _, e6⟩ := h2.ex
        obtain ⟨rfl, rfl, rfl⟩ := Token.lexeme.inj e1
        intro j hj
        rw [List.append_nil]
        exact (e6 j hj).symm
      · cases h2

/-- The end of the stream. -/
theorem collects_end {all : List (List (Nat × H.Op))} (hO : OffsetsOk H) {it it' : TokenIter H} {ts : List (Token H.Scopes)}
    (hc : Collects S it ts it') : ∀ {pre rem}, Good S it all pre rem → it'.error = none → it'.currentLine = none ∧ LineIter.At it'.lines none := by
  induction hc with
  | @stop it it' h =>
    intro pre rem hg he
    obtain ⟨o, it2, h1, h2⟩ := next_spec hO hg
    rw [h] at h1
    obtain ⟨rfl, rfl⟩ := Prod.mk.inj (Except.ok.inj h1)
    rcases h2 with ⟨_, _, h2⟩ | ⟨h2, _⟩
    · exact h2
    · rw [he] at h2; cases h2
  | @next it it1 it' t ts h hrest ih =>
    intro pre rem hg he
    obtain ⟨o, it2, h1, h2⟩ := next_spec hO hg
    rw [h] at h1
    obtain ⟨rfl, rfl⟩ := Prod.mk.inj (Except.ok.inj h1)
    rcases h2 with h2 | ⟨rfl, rem', h3, h4, h5⟩
    · obtain ⟨v', rem', _, _, e3, _⟩ := h2.ex
      exact ih e3 he
    · exact ih h5 he

theorem next_end {it : TokenIter H} (h1 : it.currentLine = none) (h2 : LineIter.At it.lines none) : next S it = .ok (none, it) := by
  have e : ({ it with currentLine := none } : TokenIter H) = it := by cases it; cases h1; rfl
  simp only [next, buildNextToken, h1, Except.ok_bind', parseNextLine, e, LineIter.next_done h2]
  rfl

theorem new_good (hO : OffsetsOk H) {data : Text} {it : TokenIter H} (h : new H data = .ok (.ok it)) :
    Good S it (events H.parser (fileLines data)) [] data ∧ left it = blen ((fileLines data).headD []) := by
  obtain ⟨res, it', h1, h2⟩ := parse_line (S := S) (all := events H.parser (fileLines data)) (evs := []) (k := 0) (r := data)
    (it := {
      scopes := H.scopes, parser := H.parser, lines := LineIter.new data, currentLine := none, byteOffset := 0, position := ⟨0, 0⟩, lineEvents := [], error := none }) hO rfl (LineIter.at_new data) rfl rfl rfl
  simp only [new, h1, Except.ok_bind'] at h
  cases res with
  | error e => cases h
  | ok u => cases h; exact ⟨h2.2.2 [] rfl rfl, h2.2.1⟩

/-! ## Calls after an error -/

/-- What holds whatever happened: enough for calls not to panic. -/
structure Alive (it : TokenIter H) : Prop where
  lines : ∃ st, LineIter.At it.lines st
  line : ∀ l, it.currentLine = some l → ∃ body nl, l = body ++ nl ∧ '\n' ∉ body ∧ (nl = [] ∨ nl = ['\n']) ∧
    (∃ x y, l = x ++ y ∧ it.byteOffset = blen x) ∧ ∀ e ∈ it.lineEvents, ∃ x y, l = x ++ y ∧ e.1 = blen x

theorem slice_alive {body nl x y u w : Text} (h : body ++ nl = x ++ y) (h' : body ++ nl = u ++ w) (hnl : nl = [] ∨ nl = ['\n'])
    (hlt : blen x < blen u) : ∃ v, strSlice (body ++ nl) (blen x) (min (blen u) (blen body)) = .ok v := by
  -- the smaller end is a boundary, and not before `x`
  obtain ⟨z, hz, -⟩ := prefix_of_blen (h.symm.trans h') (Nat.le_of_lt hlt)
  by_cases hb : blen u ≤ blen body
  · refine ⟨z, ?_⟩
    have := strSlice_append x z w
    rw [Nat.min_eq_left hb, h', hz, blen_append]
    exact this
  · have hxb : blen x ≤ blen body := by
      have h1 := congrArg blen h'
      rw [blen_append, blen_append] at h1
      rcases hnl with rfl | rfl
      · have : blen ([] : Text) = 0 := rfl
        omega
      · have : blen ['\n'] = 1 := by decide
        omega
    obtain ⟨z, hz, -⟩ := prefix_of_blen h.symm hxb
    refine ⟨z, ?_⟩
    have := strSlice_append x z nl
    rw [Nat.min_eq_right (by omega), hz, blen_append]
    exact this

theorem buildLoop_alive {body nl : Text} (hn : '\n' ∉ body) (hnl : nl = [] ∨ nl = ['\n']) (es : List (Nat × H.Op)) : ∀ {it : TokenIter H},
    it.currentLine = some (body ++ nl) → (∃ st, LineIter.At it.lines st) → (∃ x y, body ++ nl = x ++ y ∧ it.byteOffset = blen x) →
    (∀ e ∈ es, ∃ x y, body ++ nl = x ++ y ∧ e.1 = blen x) →
    ∃ res it', buildLoop S (body ++ nl) (blen body) es it = .ok (res, it') ∧ Alive it' ∧ (res = .ok none → it'.currentLine = none) := by
  induction es with
  | nil =>
    intro it _ hl ho _
    have ha : Alive { it with lineEvents := [], currentLine := none } := ⟨hl, fun l h => by cases h⟩
    by_cases hlt : it.byteOffset < blen body
    · obtain ⟨x, y, h1, h2⟩ := ho
      obtain ⟨z, hz, -⟩ := prefix_of_blen h1.symm (by omega)
      have e1 : strSlice (body ++ nl) it.byteOffset (blen body) = .ok z := by
        have := strSlice_append x z nl
        rw [h2, hz, blen_append]; exact this
      exact ⟨.ok (some (.lexeme z it.scopes it.position)), _, by simp only [buildLoop, if_pos hlt, e1, Except.ok_bind'], ha, fun h => by cases h⟩
    · exact ⟨.ok none, _, by simp only [buildLoop, if_neg hlt], ha, fun _ => rfl⟩
  | cons e es ih =>
    intro it hc hl ho hb
    obtain ⟨off, op⟩ := e
    have hb' : ∀ e ∈ es, ∃ x y, body ++ nl = x ++ y ∧ e.1 = blen x := fun e he => hb e (by simp [he])
    have hoff := hb (off, op) (by simp)
    by_cases hgt : off > it.byteOffset
    · obtain ⟨x, y, h1, h2⟩ := ho
      obtain ⟨u, w, k1, k2⟩ := hoff
      obtain ⟨v, hv⟩ := slice_alive h1 k1 hnl (by rw [← h2, ← k2]; exact hgt)
      rw [← h2, ← show off = blen u from k2] at hv
      cases hap : H.apply it.scopes op with
      | mk sc er =>
        have ha : Alive { it with
            lineEvents := es, position := ⟨it.position.line, it.position.offset + (S.segs v).length⟩, byteOffset := off, scopes := sc } :=
          ⟨hl, fun l h => by
            rw [hc] at h; cases h
            exact ⟨body, nl, rfl, hn, hnl, ⟨u, w, k1, k2⟩, hb'⟩⟩
        cases er with
        | some er => exact ⟨.error er, _, by simp only [buildLoop, if_pos hgt, hv, Except.ok_bind', hap], ha, fun h => by cases h⟩
        | none => exact ⟨.ok (some (.lexeme v it.scopes it.position)), _, by simp only [buildLoop, if_pos hgt, hv, Except.ok_bind', hap], ha, fun h => by cases h⟩
    · cases hap : H.apply it.scopes op with
      | mk sc er =>
        cases er with
        | some er =>
          refine ⟨.error er, { it with lineEvents := es, scopes := sc }, by simp only [buildLoop, if_neg hgt, hap], ⟨hl, fun l h => ?_⟩, fun h => by cases h⟩
          have h : it.currentLine = some l := h
          rw [hc] at h; cases h
          exact ⟨body, nl, rfl, hn, hnl, ho, hb'⟩
        | none =>
          obtain ⟨res, it', h1, h2⟩ := ih (it := { it with lineEvents := es, scopes := sc }) hc hl ho hb'
          exact ⟨res, it', by simp only [buildLoop, if_neg hgt, hap]; exact h1, h2⟩

theorem parse_alive {it : TokenIter H} (hO : OffsetsOk H) (h : ∃ st, LineIter.At it.lines st) (hc : it.currentLine = none) :
    ∃ res it', parseNextLine it = .ok (res, it') ∧ Alive it' := by
  have main : ∀ (lines' : LineIter) (k : Nat) (body nl : Text), it.lines.next = .ok (some (k, body ++ nl), lines') →
      (∃ st, LineIter.At lines' st) → '\n' ∉ body → (nl = [] ∨ nl = ['\n']) → ∃ res it', parseNextLine it = .ok (res, it') ∧ Alive it' := by
    intro lines' k body nl hn hl hb hnl
    cases hp : H.parse it.parser (body ++ nl) with
    | mk p res =>
      cases res with
      | error e =>
        refine ⟨.error e, { it with lines := lines', parser := p }, by simp only [parseNextLine, hn, Except.ok_bind', hp], hl, fun l h => ?_⟩
        rw [show it.currentLine = some l from h] at hc; cases hc
      | ok es =>
        refine ⟨.ok (), _, by simp only [parseNextLine, hn, Except.ok_bind', hp]; rfl, hl, fun l h => ?_⟩
        cases h
        exact ⟨body, nl, rfl, hb, hnl, ⟨[], _, rfl, rfl⟩, hO _ _ _ _ hp⟩
  obtain ⟨st, hat⟩ := h
  cases st with
  | none =>
    refine ⟨.ok (), { it with lines := it.lines, currentLine := none }, by simp only [parseNextLine, LineIter.next_done hat, Except.ok_bind'], ⟨_, hat⟩, fun l h => by cases h⟩
  | some st =>
    obtain ⟨k, r⟩ := st
    rcases line_cases r with hr | ⟨l, r', hl, rfl⟩
    · obtain ⟨lines', h1, h2⟩ := LineIter.next_last hat hr
      exact main lines' k r [] (by rw [List.append_nil]; exact h1) ⟨_, h2⟩ hr (Or.inl rfl)
    · obtain ⟨lines', h1, h2⟩ := LineIter.next_line hat hl
      exact main lines' k l ['\n'] h1 ⟨_, h2⟩ hl (Or.inr rfl)

theorem endOfLine_eq {body nl : Text} (hn : '\n' ∉ body) (hnl : nl = [] ∨ nl = ['\n']) : endOfLine (body ++ nl) = .ok (blen body) := by
  unfold endOfLine
  rcases hnl with rfl | rfl
  · rw [List.append_nil, if_neg (fun hg => hn (List.mem_of_getLast? hg))]
  · have : blen ['\n'] = 1 := by decide
    rw [List.getLast?_append, List.getLast?_singleton, Option.some_or, if_pos rfl, subU, blen_append, this, if_pos (by omega)]
    simp

theorem next_alive {it : TokenIter H} (hO : OffsetsOk H) (h : Alive it) : ∃ o it', next S it = .ok (o, it') ∧ Alive it' := by
  have build : ∃ res it', buildNextToken S it = .ok (res, it') ∧ Alive it' ∧ (res = .ok none → it'.currentLine = none) := by
    cases hc : it.currentLine with
    | none =>
      exact ⟨.ok none, { it with currentLine := none }, by simp only [buildNextToken, hc], ⟨h.lines, fun l h => by cases h⟩, fun _ => rfl⟩
    | some l =>
      obtain ⟨body, nl, rfl, hb, hnl, ho, hbd⟩ := h.line l hc
      obtain ⟨res, it', h1, h2⟩ := buildLoop_alive (S := S) hb hnl it.lineEvents hc h.lines ho hbd
      exact ⟨res, it', by simp only [buildNextToken, hc, endOfLine_eq hb hnl, Except.ok_bind']; exact h1, h2⟩
  obtain ⟨res, it1, h1, h2, h3⟩ := build
  cases res with
  | error e => exact ⟨none, { it1 with error := some e }, by simp only [next, h1, Except.ok_bind'], h2.lines, h2.line⟩
  | ok o =>
    cases o with
    | some t => exact ⟨some t, it1, by simp only [next, h1, Except.ok_bind'], h2⟩
    | none =>
      obtain ⟨res, it2, k1, k2⟩ := parse_alive hO h2.lines (h3 rfl)
      cases res with
      | error e => exact ⟨none, { it2 with error := some e }, by simp only [next, h1, Except.ok_bind', k1], k2.lines, k2.line⟩
      | ok u => exact ⟨if it2.currentLine.isSome then some .newline else none, it2, by simp only [next, h1, Except.ok_bind', k1], k2⟩

theorem new_alive (hO : OffsetsOk H) {data : Text} {it : TokenIter H} (h : new H data = .ok (.ok it)) : Alive it := by
  obtain ⟨res, it', h1, h2⟩ := parse_alive (it := {
      scopes := H.scopes, parser := H.parser, lines := LineIter.new data, currentLine := none, byteOffset := 0, position := ⟨0, 0⟩, lineEvents := [], error := none }) hO ⟨_, LineIter.at_new data⟩ rfl
  simp only [new, h1, Except.ok_bind'] at h
  cases res with
  | error e => cases h
  | ok u => cases h; exact h2

end Scribe.TokenIter
