import Verif.Spec.Stream
import Verif.Proofs.TokenStream
/-! The iterator gives the tokens of `stream`. -/
namespace Scribe.TokenIter
open Spec
variable {S : Segmenter} {H : Highlighter}

theorem splitBytes_append (x y : Text) : splitBytes (blen x) (x ++ y) = (x, y) := by
  induction x with
  | nil =>
    cases y with
    | nil => rfl
    | cons c cs =>
      rw [List.nil_append, splitBytes, if_neg]
      have := Char.utf8Size_pos c
      show ¬ _ ≤ 0
      omega
  | cons c cs ih =>
    rw [List.cons_append, splitBytes, blen_cons, if_pos (by omega), Nat.add_sub_cancel_left, ih]

theorem splitBytes_all {n : Nat} (x : Text) (h : blen x ≤ n) : splitBytes n x = (x, []) := by
  induction x generalizing n with
  | nil => rfl
  | cons c cs ih =>
    rw [blen_cons] at h
    rw [splitBytes, if_pos (by omega), ih (by omega)]

theorem Collects.of_next_eq {a b : TokenIter H} (h : TokenIter.next S a = TokenIter.next S b) {ts it'} (hb : Collects S b ts it') : Collects S a ts it' := by
  cases hb with
  | stop k => exact .stop (h.trans k)
  | next k k' => exact .next (h.trans k) k'

theorem next_of_build {a b : TokenIter H} (h : buildNextToken S a = buildNextToken S b) : next S a = next S b := by
  unfold next; rw [h]

/-- Between two lines. -/
structure Over (it : TokenIter H) (k : H.Scopes) (it1 : TokenIter H) : Prop where
  line : it1.currentLine = none
  lines : it1.lines = it.lines
  parser : it1.parser = it.parser
  scopes : it1.scopes = k
  error : it1.error = it.error

theorem line_stream {body nl : Text} (hn : '\n' ∉ body) (hnl : nl = [] ∨ nl = ['\n']) (n : Nat) (es : List (Nat × H.Op)) :
    ∀ {it : TokenIter H} {a rest : Text} {col : Nat}, it.currentLine = some (body ++ nl) → it.lineEvents = es → body = a ++ rest →
    (it.byteOffset = blen a ∨ (rest = [] ∧ it.byteOffset = blen (body ++ nl))) → it.position = ⟨n, col⟩ →
    (∀ e ∈ es, ∃ x y, body ++ nl = x ++ y ∧ e.1 = blen x) →
    match lineStream S.segs n it.byteOffset col it.scopes rest es with
    | (ts, .error e) => ∃ it', Collects S it ts it' ∧ it'.error = some e
    | (ts, .ok k) => ∃ it1, Over it k it1 ∧ ∀ ts' it', Collects S it1 ts' it' → Collects S it (ts ++ ts') it' := by
  have hnlb : blen nl ≤ 1 := by
    rcases hnl with rfl | rfl
    · exact Nat.zero_le _
    · decide
  have build : ∀ it : TokenIter H, it.currentLine = some (body ++ nl) → buildNextToken S it = buildLoop S (body ++ nl) (blen body) it.lineEvents it := by
    intro it hc
    simp only [buildNextToken, hc, endOfLine_eq hn hnl, Except.ok_bind']
  induction es with
  | nil =>
    intro it a rest col hc he hb ho hp _
    simp only [lineStream]
    have hlt : it.byteOffset < blen body ↔ rest ≠ [] := by
      rw [hb, blen_append]
      rcases ho with ho | ⟨ho1, ho2⟩
      · rw [ho]
        constructor
        · rintro h rfl; simp at h
        · intro h
          have : blen rest ≠ 0 := fun h' => h (blen_eq_zero.mp h')
          omega
      · rw [ho1, ho2, hb, blen_append, blen_append, ho1]; simp
    refine ⟨{ it with lineEvents := [], currentLine := none }, ⟨rfl, rfl, rfl, rfl, rfl⟩, ?_⟩
    intro ts' it' h
    by_cases hr : rest = []
    · rw [if_pos hr, List.nil_append]
      refine Collects.of_next_eq (next_of_build ?_) h
      rw [build it hc, he]
      simp only [buildLoop, if_neg (fun h => hlt.mp h hr), buildNextToken]
    · rw [if_neg hr]
      have ho' : it.byteOffset = blen a := by
        rcases ho with ho | ⟨ho1, _⟩
        · exact ho
        · exact absurd ho1 hr
      refine .next ?_ h
      have e1 : strSlice (body ++ nl) it.byteOffset (blen body) = .ok rest := by
        have := strSlice_append a rest nl
        rw [ho', hb, blen_append]; exact this
      simp only [next, build it hc, he, buildLoop, if_pos (hlt.mpr hr), e1, Except.ok_bind', hp]
  | cons e es ih =>
    intro it a rest col hc he hb ho hp hbd
    obtain ⟨off, op⟩ := e
    have hbd' : ∀ e ∈ es, ∃ x y, body ++ nl = x ++ y ∧ e.1 = blen x := fun e h => hbd e (by simp [h])
    simp only [lineStream]
    cases hap : H.apply it.scopes op with
    | mk k' er =>
      by_cases hgt : off > it.byteOffset
      · -- a lexeme ends here
        obtain ⟨v, rest', hv, hsp, hb', hoff'⟩ : ∃ v rest', strSlice (body ++ nl) it.byteOffset (min off (blen body)) = .ok v ∧
            splitBytes (off - it.byteOffset) rest = (v, rest') ∧ body = a ++ v ++ rest' ∧
            (off = blen (a ++ v) ∨ (rest' = [] ∧ off = blen (body ++ nl))) := by
          obtain ⟨x, y, hxy, hx⟩ := hbd (off, op) (by simp)
          dsimp only at hx
          have hlen : blen x + blen y = blen body + blen nl := by
            have := congrArg blen hxy; rw [blen_append, blen_append] at this; omega
          have ho' : it.byteOffset = blen a := by
            rcases ho with ho | ⟨_, ho2⟩
            · exact ho
            · rw [blen_append] at ho2; omega
          by_cases hle : off ≤ blen body
          · have hax : blen a ≤ blen x := by omega
            obtain ⟨z, hz1, hz2⟩ := prefix_of_blen (x := x) (y := y) (u := body) (w := nl) hxy.symm (by omega)
            obtain ⟨v, hv1, hv2⟩ := prefix_of_blen (x := a) (y := rest) (u := x) (w := z) (hb.symm.trans hz1) hax
            refine ⟨v, z, ?_, ?_, ?_, Or.inl ?_⟩
            · have := strSlice_append a v (z ++ nl)
              rw [Nat.min_eq_left hle, ho', hx, hz1, hv1, blen_append]
              simpa using this
            · have h1 : off - it.byteOffset = blen v := by rw [hx, hv1, blen_append, ho']; omega
              rw [h1, hv2]; exact splitBytes_append v z
            · rw [hz1, hv1]
            · rw [hx, hv1]
          · refine ⟨rest, [], ?_, splitBytes_all _ ?_, by rw [hb]; simp, Or.inr ⟨rfl, ?_⟩⟩
            · have := strSlice_append a rest nl
              rw [Nat.min_eq_right (by omega), ho', hb, blen_append]; exact this
            · rw [hb, blen_append] at hle; omega
            · rw [blen_append]; omega
        cases er with
        | some er =>
          refine ⟨{ it with
              lineEvents := es, position := ⟨it.position.line, it.position.offset + (S.segs v).length⟩, byteOffset := off, scopes := k', error := some er }, .stop ?_, rfl⟩
          simp only [next, build it hc, he, buildLoop, if_pos hgt, hv, Except.ok_bind', hap]
        | none =>
          simp only [if_neg (Nat.not_le.mpr hgt), hsp]
          have hnext : next S it = .ok (some (.lexeme v it.scopes ⟨n, col⟩), { it with
              lineEvents := es, position := ⟨n, col + (S.segs v).length⟩, byteOffset := off, scopes := k' }) := by
            simp only [next, build it hc, he, buildLoop, if_pos hgt, hv, Except.ok_bind', hap, hp]
          have := ih (it := { it with lineEvents := es, position := ⟨n, col + (S.segs v).length⟩, byteOffset := off, scopes := k' })
            (a := a ++ v) (rest := rest') (col := col + (S.segs v).length) hc rfl hb' hoff' rfl hbd'
          dsimp only at this
          generalize lineStream S.segs n off (col + (S.segs v).length) k' rest' es = r at this ⊢
          obtain ⟨ts, r⟩ := r
          cases r with
          | error e =>
            obtain ⟨it', h1, h2⟩ := this
            exact ⟨it', .next hnext h1, h2⟩
          | ok k =>
            obtain ⟨it1, h1, h2⟩ := this
            exact ⟨it1, ⟨h1.line, h1.lines, h1.parser, h1.scopes, h1.error⟩, fun ts' it' h => .next hnext (h2 ts' it' h)⟩
      · cases er with
        | some er =>
          refine ⟨{ it with lineEvents := es, scopes := k', error := some er }, .stop ?_, rfl⟩
          simp only [next, build it hc, he, buildLoop, if_neg hgt, Except.ok_bind', hap]
        | none =>
          simp only [if_pos (Nat.not_lt.mp hgt)]
          have hnext : next S it = next S { it with lineEvents := es, scopes := k' } := by
            apply next_of_build
            rw [build it hc, build { it with lineEvents := es, scopes := k' } hc, he]
            simp only [buildLoop, if_neg hgt, hap]
          have := ih (it := { it with lineEvents := es, scopes := k' }) (a := a) (rest := rest) (col := col) hc rfl hb ho hp hbd'
          dsimp only at this
          generalize lineStream S.segs n it.byteOffset col k' rest es = r at this ⊢
          obtain ⟨ts, r⟩ := r
          cases r with
          | error e =>
            obtain ⟨it', h1, h2⟩ := this
            exact ⟨it', .of_next_eq hnext h1, h2⟩
          | ok k =>
            obtain ⟨it1, h1, h2⟩ := this
            exact ⟨it1, ⟨h1.line, h1.lines, h1.parser, h1.scopes, h1.error⟩, fun ts' it' h => .of_next_eq hnext (h2 ts' it' h)⟩

/-- What the line iterator still gives: these lines, the first of them with this number. -/
inductive Holding (lines : LineIter) (n : Nat) : List Text → Prop
  | done : LineIter.At lines none → Holding lines n []
  | more (r : Text) : LineIter.At lines (some (n, r)) → Holding lines n (fileLines r)

theorem Holding.next {lines : LineIter} {n : Nat} {ls : List Text} (h : Holding lines n ls) :
    (ls = [] ∧ lines.next = .ok (none, lines)) ∨ ∃ body nl ls' lines', ls = (body ++ nl) :: ls' ∧ '\n' ∉ body ∧ (nl = [] ∨ nl = ['\n']) ∧
      lines.next = .ok (some (n, body ++ nl), lines') ∧ Holding lines' (n + 1) ls' := by
  cases h with
  | done h => exact Or.inl ⟨rfl, LineIter.next_done h⟩
  | more r h =>
    right
    rcases line_cases r with hr | ⟨l, r', hl, rfl⟩
    · obtain ⟨lines', h1, h2⟩ := LineIter.next_last h hr
      exact ⟨r, [], [], lines', by rw [fileLines_no_nl hr]; simp, hr, Or.inl rfl, by rw [List.append_nil]; exact h1, .done h2⟩
    · obtain ⟨lines', h1, h2⟩ := LineIter.next_line h hl
      exact ⟨l, ['\n'], fileLines r', lines', fileLines_append hl, hl, Or.inr rfl, h1, .more r' h2⟩

theorem filter_nl {body nl : Text} (hn : '\n' ∉ body) (hnl : nl = [] ∨ nl = ['\n']) : (body ++ nl).filter (· != '\n') = body := by
  rw [List.filter_append, List.filter_eq_self.mpr (by intro c hc; simp; rintro rfl; exact hn hc)]
  rcases hnl with rfl | rfl <;> simp

theorem lines_stream (hO : OffsetsOk H) (ls : List Text) : ∀ {it : TokenIter H} {n : Nat}, it.currentLine = none → it.error = none →
    Holding it.lines n ls → ∃ it', Collects S it (streamFrom S.segs n it.scopes it.parser ls).1 it' ∧ it'.error = (streamFrom S.segs n it.scopes it.parser ls).2 := by
  induction ls with
  | nil =>
    intro it n hc he h
    rcases h.next with ⟨_, h⟩ | ⟨_, _, _, _, h, _⟩
    · refine ⟨it, .stop ?_, he⟩
      simp only [next, buildNextToken, hc, Except.ok_bind', parseNextLine, h]
      cases it; cases hc; rfl
    · cases h
  | cons l ls ih =>
    intro it n hc he h
    rcases h.next with ⟨h, _⟩ | ⟨body, nl, ls', lines', h1, hn, hnl, h2, h3⟩
    · cases h
    obtain ⟨rfl, rfl⟩ := List.cons.inj h1
    simp only [streamFrom, filter_nl hn hnl]
    cases hp : H.parse it.parser (body ++ nl) with
    | mk p' res =>
      cases res with
      | error e =>
        refine ⟨{ it with lines := lines', parser := p', error := some e }, .stop ?_, ?_⟩
        · simp only [next, buildNextToken, hc, Except.ok_bind', parseNextLine, h2, hp]
        · rfl
      | ok es =>
        have hnext : next S it = .ok (some .newline, { it with lines := lines', parser := p', lineEvents := es, currentLine := some (body ++ nl), position := ⟨n, 0⟩, byteOffset := 0 }) := by
          simp only [next, buildNextToken, hc, Except.ok_bind', parseNextLine, h2, hp, Option.isSome_some, if_true]
        have := line_stream (S := S) hn hnl n es
          (it := { it with lines := lines', parser := p', lineEvents := es, currentLine := some (body ++ nl), position := ⟨n, 0⟩, byteOffset := 0 })
          (a := []) (rest := body) (col := 0) rfl rfl rfl (Or.inl rfl) rfl (hO _ _ _ _ hp)
        dsimp only at this ⊢
        generalize lineStream S.segs n 0 0 it.scopes body es = r at this ⊢
        obtain ⟨ts, r⟩ := r
        cases r with
        | error e =>
          obtain ⟨it', k1, k2⟩ := this
          exact ⟨it', .next hnext k1, k2⟩
        | ok k =>
          obtain ⟨it1, k1, k2⟩ := this
          obtain ⟨it', j1, j2⟩ := ih (it := it1) (n := n + 1) k1.line (k1.error.trans he) (by rw [k1.lines]; exact h3)
          rw [k1.scopes, k1.parser] at j1 j2
          exact ⟨it', .next hnext (k2 _ _ j1), j2⟩

theorem new_stream (hO : OffsetsOk H) (data : Text) :
    match stream S.segs H data with
    | .error e => new H data = .ok (.error e)
    | .ok (ts, e) => ∃ it it', new H data = .ok (.ok it) ∧ Collects S it ts it' ∧ it'.error = e := by
  have hh : Holding (LineIter.new data) 0 (fileLines data) := .more _ (LineIter.at_new data)
  obtain ⟨it', h1, h2⟩ := lines_stream (S := S) hO (fileLines data) (n := 0)
    (it := { scopes := H.scopes, parser := H.parser, lines := LineIter.new data, currentLine := none, byteOffset := 0, position := ⟨0, 0⟩, lineEvents := [], error := none }) rfl rfl hh
  rcases hh.next with ⟨h, _⟩ | ⟨body, nl, ls', lines', e1, hn, hnl, e2, _⟩
  · rcases line_cases data with hr | ⟨l, r', hl, rfl⟩
    · rw [fileLines_no_nl hr] at h; cases h
    · rw [fileLines_append hl] at h; cases h
  unfold stream
  rw [e1] at h1 h2 ⊢
  simp only [List.headD_cons]
  cases hp : H.parse H.parser (body ++ nl) with
  | mk p' res =>
    cases res with
    | error e => simp only [new, parseNextLine, e2, Except.ok_bind', hp]
    | ok es =>
      dsimp only
      have hnew : new H data = .ok (.ok { scopes := H.scopes, parser := p', lines := lines', currentLine := some (body ++ nl), byteOffset := 0, position := ⟨0, 0⟩, lineEvents := es, error := none }) := by
        simp only [new, parseNextLine, e2, Except.ok_bind', hp]
      refine ⟨_, it', hnew, ?_, h2⟩
      dsimp only at h1
      generalize (streamFrom S.segs 0 H.scopes H.parser ((body ++ nl) :: ls')).1 = ts at h1 ⊢
      have hnext : next S (H := H) { scopes := H.scopes, parser := H.parser, lines := LineIter.new data, currentLine := none, byteOffset := 0, position := ⟨0, 0⟩, lineEvents := [], error := none } =
          .ok (some .newline, { scopes := H.scopes, parser := p', lines := lines', currentLine := some (body ++ nl), byteOffset := 0, position := ⟨0, 0⟩, lineEvents := es, error := none }) := by
        simp only [next, buildNextToken, Except.ok_bind', parseNextLine, e2, hp, Option.isSome_some, if_true]
      cases h1 with
      | stop k => rw [hnext] at k; cases k
      | next k k' => rw [hnext] at k; cases k; exact k'

/-- The error of a line is that of applying its events. -/
theorem lineStream_error (segs : Text → List Text) (n : Nat) (es : List (Nat × H.Op)) : ∀ (o col : Nat) (k : H.Scopes) (rest : Text),
    (lineStream segs n o col k rest es).2 = firstError.applyAll H k es := by
  induction es with
  | nil => intro o col k rest; rfl
  | cons e es ih =>
    intro o col k rest
    obtain ⟨off, op⟩ := e
    simp only [lineStream, firstError.applyAll]
    cases hap : H.apply k op with
    | mk k' er =>
      cases er with
      | some er => rfl
      | none =>
        dsimp only
        split
        · exact ih _ _ _ _
        · exact ih _ _ _ _

theorem streamFrom_error (segs : Text → List Text) (ls : List Text) : ∀ (n : Nat) (k : H.Scopes) (p : H.Parser),
    (streamFrom segs n k p ls).2 = firstError H k p ls := by
  induction ls with
  | nil => intro n k p; rfl
  | cons l ls ih =>
    intro n k p
    simp only [streamFrom, firstError]
    cases hp : H.parse p l with
    | mk p' res =>
      cases res with
      | error e => rfl
      | ok es =>
        have := lineStream_error segs n es 0 0 k (l.filter (· != '\n'))
        dsimp only
        generalize lineStream segs n 0 0 k (l.filter (· != '\n')) es = r at this ⊢
        obtain ⟨ts, r⟩ := r
        dsimp only at this
        subst this
        cases firstError.applyAll H k es with
        | error e => rfl
        | ok k' => exact ih _ _ _

end Scribe.TokenIter
