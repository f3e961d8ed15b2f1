import Verif.Spec.Parser
import Verif.Proofs.Stream
/-! The iterator with any highlighter. -/
namespace Scribe.TokenIter
open Spec
variable {S : Segmenter} {H : Highlighter}

theorem splitBytes_join (n : Nat) (x : Text) : (splitBytes n x).1 ++ (splitBytes n x).2 = x := by
  induction x generalizing n with
  | nil => rfl
  | cons c cs ih =>
    rw [splitBytes]
    split
    · rw [List.cons_append, ih]
    · rfl

theorem splitBytes_le (n : Nat) (x : Text) : blen (splitBytes n x).1 ≤ n := by
  induction x generalizing n with
  | nil => exact Nat.zero_le _
  | cons c cs ih =>
    rw [splitBytes]
    split
    · rw [blen_cons]
      have := ih (n - c.utf8Size)
      omega
    · exact Nat.zero_le _

theorem strSlice_not {t : Text} {i j : Nat} (h : ∀ a b c, t = a ++ b ++ c → blen a = i → blen (a ++ b) ≠ j) : ∃ p, strSlice t i j = .error p := by
  cases hs : strSlice t i j with
  | error p => exact ⟨p, rfl⟩
  | ok v =>
    unfold strSlice at hs
    cases h1 : strSplit t j with
    | error e => rw [h1] at hs; cases hs
    | ok x =>
      obtain ⟨x, y⟩ := x
      rw [h1] at hs
      change strFrom x i = .ok v at hs
      unfold strFrom at hs
      cases h2 : strSplit x i with
      | error e => rw [h2] at hs; cases hs
      | ok z =>
        obtain ⟨z, w⟩ := z
        obtain ⟨rfl, h3⟩ := strSplit_ok.mp h1
        obtain ⟨rfl, h4⟩ := strSplit_ok.mp h2
        exact absurd h3 (h _ _ _ rfl h4)

theorem Ends.of_next_eq {a b : TokenIter H} (h : TokenIter.next S a = TokenIter.next S b) {ts r} (hb : Ends S b ts r) : Ends S a ts r := by
  match r, hb with
  | none, ⟨it', h1, h2⟩ => exact ⟨it', Collects.of_next_eq h h1, h2⟩
  | some (some e), ⟨it', h1, h2⟩ => exact ⟨it', Collects.of_next_eq h h1, h2⟩
  | some none, hb =>
    cases hb with
    | now k => exact .now (h.trans k)
    | next k k' => exact .next (h.trans k) k'

theorem Ends.cons {it it1 : TokenIter H} {t ts r} (h : TokenIter.next S it = .ok (some t, it1)) (hb : Ends S it1 ts r) : Ends S it (t :: ts) r := by
  match r, hb with
  | none, ⟨it', h1, h2⟩ => exact ⟨it', .next h h1, h2⟩
  | some (some e), ⟨it', h1, h2⟩ => exact ⟨it', .next h h1, h2⟩
  | some none, hb => exact .next h hb

theorem PanicsAfter.functional {it : TokenIter H} {ts} (h : PanicsAfter S it ts) : ∀ {ts'}, PanicsAfter S it ts' → ts = ts' := by
  induction h with
  | now k =>
    intro ts' h'
    cases h' with
    | now => rfl
    | next k' => rw [k] at k'; cases k'
  | next k _ ih =>
    intro ts' h'
    cases h' with
    | now k' => rw [k] at k'; cases k'
    | next k' h' => rw [k] at k'; cases k'; rw [ih h']

theorem PanicsAfter.not_collects {it : TokenIter H} {ts} (h : PanicsAfter S it ts) : ∀ {ts' it'}, ¬ Collects S it ts' it' := by
  induction h with
  | now k =>
    intro ts' it' h'
    cases h' with
    | stop k' => rw [k] at k'; cases k'
    | next k' => rw [k] at k'; cases k'
  | next k _ ih =>
    intro ts' it' h'
    cases h' with
    | stop k' => rw [k] at k'; cases k'
    | next k' h' => rw [k] at k'; cases k'; exact ih h'

theorem Ends.functional {it : TokenIter H} {ts ts' r r'} (h : Ends S it ts r) (h' : Ends S it ts' r') : ts = ts' ∧ r = r' := by
  have key : ∀ {ts ts' r r'}, (∃ it', Collects S it ts it' ∧ it'.error = r) → (∃ it', Collects S it ts' it' ∧ it'.error = r') → ts = ts' ∧ r = r' := by
    rintro ts ts' r r' ⟨it1, h1, h2⟩ ⟨it2, h3, h4⟩
    obtain ⟨rfl, rfl⟩ := h1.functional h3
    exact ⟨rfl, h2.symm.trans h4⟩
  match r, r', h, h' with
  | none, none, h, h' => exact ⟨(key h h').1, rfl⟩
  | none, some (some e), h, h' => have := (key h h').2; cases this
  | none, some none, ⟨_, h, _⟩, h' => exact absurd h (PanicsAfter.not_collects h')
  | some (some e), none, h, h' => have := (key h h').2; cases this
  | some (some e), some (some e'), h, h' => obtain ⟨a, b⟩ := key h h'; cases b; exact ⟨a, rfl⟩
  | some (some e), some none, ⟨_, h, _⟩, h' => exact absurd h (PanicsAfter.not_collects h')
  | some none, none, h, ⟨_, h', _⟩ => exact absurd h' (PanicsAfter.not_collects h)
  | some none, some (some e), h, ⟨_, h', _⟩ => exact absurd h' (PanicsAfter.not_collects h)
  | some none, some none, h, h' => exact ⟨PanicsAfter.functional h h', rfl⟩

theorem line_run {body nl : Text} (hn : '\n' ∉ body) (hnl : nl = [] ∨ nl = ['\n']) (n : Nat) (es : List (Nat × H.Op)) :
    ∀ {it : TokenIter H} {left : Option Text} {col : Nat}, it.currentLine = some (body ++ nl) → it.lineEvents = es →
    ((∃ a rest, left = some rest ∧ body = a ++ rest ∧ it.byteOffset = blen a) ∨ (left = none ∧ blen body < it.byteOffset)) → it.position = ⟨n, col⟩ →
    match lineRun S.segs n it.byteOffset col it.scopes left es with
    | (ts, .error e) => Ends S it ts (some e)
    | (ts, .ok k) => ∃ it1, Over it k it1 ∧ ∀ ts' r, Ends S it1 ts' r → Ends S it (ts ++ ts') r := by
  have build : ∀ it : TokenIter H, it.currentLine = some (body ++ nl) → buildNextToken S it = buildLoop S (body ++ nl) (blen body) it.lineEvents it := by
    intro it hc
    simp only [buildNextToken, hc, endOfLine_eq hn hnl, Except.ok_bind']
  induction es with
  | nil =>
    intro it left col hc he ho hp
    simp only [lineRun]
    refine ⟨{ it with lineEvents := [], currentLine := none }, ⟨rfl, rfl, rfl, rfl, rfl⟩, ?_⟩
    intro ts' r h
    by_cases hr : left.getD [] = []
    · rw [if_pos hr, List.nil_append]
      refine Ends.of_next_eq (next_of_build ?_) h
      have hlt : ¬ it.byteOffset < blen body := by
        rcases ho with ⟨a, rest, rfl, hb, ho⟩ | ⟨_, ho⟩
        · change rest = [] at hr
          rw [hb, hr, ho]; simp
        · omega
      rw [build it hc, he]
      simp only [buildLoop, if_neg hlt, buildNextToken]
    · rw [if_neg hr]
      rcases ho with ⟨a, rest, rfl, hb, ho⟩ | ⟨rfl, ho⟩
      · refine Ends.cons ?_ h
        change rest ≠ [] at hr
        have hlt : it.byteOffset < blen body := by
          have : blen rest ≠ 0 := fun h' => hr (blen_eq_zero.mp h')
          rw [hb, blen_append]; omega
        have e1 : strSlice (body ++ nl) it.byteOffset (blen body) = .ok rest := by
          have := strSlice_append a rest nl
          rw [ho, hb, blen_append]; exact this
        simp only [next, build it hc, he, buildLoop, if_pos hlt, e1, Except.ok_bind', hp, Option.getD_some]
      · exact absurd rfl hr
  | cons e es ih =>
    intro it left col hc he ho hp
    obtain ⟨off, op⟩ := e
    simp only [lineRun]
    by_cases hle : off ≤ it.byteOffset
    · simp only [if_pos hle]
      have hgt : ¬ off > it.byteOffset := Nat.not_lt.mpr hle
      cases hap : H.apply it.scopes op with
      | mk k' er =>
        cases er with
        | some er =>
          refine ⟨{ it with lineEvents := es, scopes := k', error := some er }, .stop ?_, rfl⟩
          simp only [next, build it hc, he, buildLoop, if_neg hgt, Except.ok_bind', hap]
        | none =>
          have hnext : next S it = next S { it with lineEvents := es, scopes := k' } := by
            apply next_of_build
            rw [build it hc, build { it with lineEvents := es, scopes := k' } hc, he]
            simp only [buildLoop, if_neg hgt, hap]
          have := ih (it := { it with lineEvents := es, scopes := k' }) (left := left) (col := col) hc rfl ho hp
          dsimp only at this ⊢
          generalize lineRun S.segs n it.byteOffset col k' left es = r at this ⊢
          obtain ⟨ts, r⟩ := r
          cases r with
          | error e => exact Ends.of_next_eq hnext this
          | ok k =>
            obtain ⟨it1, h1, h2⟩ := this
            exact ⟨it1, ⟨h1.line, h1.lines, h1.parser, h1.scopes, h1.error⟩, fun ts' r h => Ends.of_next_eq hnext (h2 ts' r h)⟩
    · have hgt : off > it.byteOffset := Nat.not_le.mp hle
      simp only [if_neg hle]
      have panic : (∃ p, strSlice (body ++ nl) it.byteOffset (min off (blen body)) = .error p) → Ends S it [] (some none) := by
        rintro ⟨p, h⟩
        refine .now (p := p) ?_
        simp only [next, build it hc, he, buildLoop, if_pos hgt, h]
        rfl
      rcases ho with ⟨a, rest, rfl, hb, ho⟩ | ⟨rfl, ho⟩
      · dsimp only
        by_cases hbad : (splitBytes (off - it.byteOffset) rest).2 ≠ [] ∧ blen (splitBytes (off - it.byteOffset) rest).1 ≠ off - it.byteOffset
        · rw [if_pos hbad]
          refine panic (strSlice_not ?_)
          intro x y z h1 h2 h3
          -- the event is at a boundary
          have hsp : off < blen body := by
            refine Nat.lt_of_not_le fun hge => hbad.1 ?_
            rw [splitBytes_all _ (by rw [hb, blen_append] at hge; omega)]
          rw [Nat.min_eq_left (by omega)] at h3
          obtain ⟨w, hw1, hw2⟩ := prefix_of_blen (x := x ++ y) (y := z) (u := body) (w := nl) h1.symm (by omega)
          obtain ⟨v, hv1, hv2⟩ := prefix_of_blen (x := a) (y := rest) (u := x ++ y) (w := w) (hb.symm.trans hw1) (by rw [h3]; omega)
          refine hbad.2 ?_
          have hv : off - it.byteOffset = blen v := by rw [← h3, hv1, blen_append, ho]; omega
          rw [hv2, hv, splitBytes_append]
        · rw [if_neg hbad]
          generalize hvv : splitBytes (off - it.byteOffset) rest = vr at hbad ⊢
          obtain ⟨v, rest'⟩ := vr
          have hj := splitBytes_join (off - it.byteOffset) rest
          have hl := splitBytes_le (off - it.byteOffset) rest
          rw [hvv] at hj hl
          dsimp only at hj hl hbad ⊢
          have hmin : min off (blen body) = blen a + blen v := by
            rw [hb, ← hj, blen_append, blen_append]
            by_cases hr : rest' = []
            · rw [hr]; simp; omega
            · have : blen v = off - it.byteOffset := Classical.byContradiction fun k => hbad ⟨hr, k⟩
              omega
          have hv : strSlice (body ++ nl) it.byteOffset (min off (blen body)) = .ok v := by
            have := strSlice_append a v (rest' ++ nl)
            rw [hmin, ho, hb, ← hj]
            simpa using this
          cases hap : H.apply it.scopes op with
          | mk k' er =>
            cases er with
            | some er =>
              refine ⟨{ it with
                  lineEvents := es, position := ⟨it.position.line, it.position.offset + (S.segs v).length⟩, byteOffset := off, scopes := k', error := some er }, .stop ?_, rfl⟩
              simp only [next, build it hc, he, buildLoop, if_pos hgt, hv, Except.ok_bind', hap]
            | none =>
              have hnext : next S it = .ok (some (.lexeme v it.scopes ⟨n, col⟩), { it with
                  lineEvents := es, position := ⟨n, col + (S.segs v).length⟩, byteOffset := off, scopes := k' }) := by
                simp only [next, build it hc, he, buildLoop, if_pos hgt, hv, Except.ok_bind', hap, hp]
              have := ih (it := { it with lineEvents := es, position := ⟨n, col + (S.segs v).length⟩, byteOffset := off, scopes := k' })
                (left := if off - it.byteOffset ≤ blen rest then some rest' else none) (col := col + (S.segs v).length) hc rfl (by
                  dsimp only
                  by_cases hin : off - it.byteOffset ≤ blen rest
                  · rw [if_pos hin]
                    refine Or.inl ⟨a ++ v, rest', rfl, by rw [hb, ← hj]; simp, ?_⟩
                    have : min off (blen body) = off := Nat.min_eq_left (by rw [hb, blen_append]; omega)
                    rw [blen_append, ← hmin, this]
                  · rw [if_neg hin]
                    exact Or.inr ⟨rfl, by rw [hb, blen_append]; omega⟩) rfl
              dsimp only at this ⊢
              generalize lineRun S.segs n off (col + (S.segs v).length) k' (if off - it.byteOffset ≤ blen rest then some rest' else none) es = r at this ⊢
              obtain ⟨ts, r⟩ := r
              cases r with
              | error e => exact Ends.cons hnext this
              | ok k =>
                obtain ⟨it1, h1, h2⟩ := this
                exact ⟨it1, ⟨h1.line, h1.lines, h1.parser, h1.scopes, h1.error⟩, fun ts' r h => Ends.cons hnext (h2 ts' r h)⟩
      · refine panic (strSlice_not ?_)
        intro x y z h1 h2 h3
        rw [blen_append] at h3
        omega

theorem lines_run (ls : List Text) : ∀ {it : TokenIter H} {n : Nat}, it.currentLine = none → it.error = none →
    Holding it.lines n ls → Ends S it (linesRun S.segs n it.scopes it.parser ls).1 (linesRun S.segs n it.scopes it.parser ls).2 := by
  induction ls with
  | nil =>
    intro it n hc he h
    rcases h.next with ⟨_, h⟩ | ⟨_, _, _, _, h, _⟩
    · refine ⟨it, .stop ?_, he⟩
      simp only [next, buildNextToken, hc, Except.ok_bind', parseNextLine, h]
      cases it; cases hc; rfl
    · cases h
  | cons l ls ih =>
    intro it n hc he h
    rcases h.next with ⟨h, _⟩ | ⟨body, nl, ls', lines', h1, hn, hnl, h2, h3⟩
    · cases h
    obtain ⟨rfl, rfl⟩ := List.cons.inj h1
    simp only [linesRun, filter_nl hn hnl]
    cases hp : H.parse it.parser (body ++ nl) with
    | mk p' res =>
      cases res with
      | error e =>
        refine ⟨{ it with lines := lines', parser := p', error := some e }, .stop ?_, ?_⟩
        · simp only [next, buildNextToken, hc, Except.ok_bind', parseNextLine, h2, hp]
        · rfl
      | ok es =>
        have hnext : next S it = .ok (some .newline, { it with lines := lines', parser := p', lineEvents := es, currentLine := some (body ++ nl), position := ⟨n, 0⟩, byteOffset := 0 }) := by
          simp only [next, buildNextToken, hc, Except.ok_bind', parseNextLine, h2, hp, Option.isSome_some, if_true]
        have := line_run (S := S) hn hnl n es
          (it := { it with lines := lines', parser := p', lineEvents := es, currentLine := some (body ++ nl), position := ⟨n, 0⟩, byteOffset := 0 })
          (left := some body) (col := 0) rfl rfl (Or.inl ⟨[], body, rfl, rfl, rfl⟩) rfl
        dsimp only at this ⊢
        generalize lineRun S.segs n 0 0 it.scopes (some body) es = r at this ⊢
        obtain ⟨ts, r⟩ := r
        cases r with
        | error e => exact Ends.cons hnext this
        | ok k =>
          obtain ⟨it1, k1, k2⟩ := this
          have j := ih (it := it1) (n := n + 1) k1.line (k1.error.trans he) (by rw [k1.lines]; exact h3)
          rw [k1.scopes, k1.parser] at j
          exact Ends.cons hnext (k2 _ _ j)

theorem new_run (data : Text) :
    match tokenRun S.segs H data with
    | .error e => new H data = .ok (.error e)
    | .ok (ts, r) => ∃ it, new H data = .ok (.ok it) ∧ Ends S it ts r := by
  have hh : Holding (LineIter.new data) 0 (fileLines data) := .more _ (LineIter.at_new data)
  have h1 := lines_run (S := S) (H := H) (fileLines data) (n := 0)
    (it := { scopes := H.scopes, parser := H.parser, lines := LineIter.new data, currentLine := none, byteOffset := 0, position := ⟨0, 0⟩, lineEvents := [], error := none }) rfl rfl hh
  rcases hh.next with ⟨h, _⟩ | ⟨body, nl, ls', lines', e1, hn, hnl, e2, _⟩
  · rcases line_cases data with hr | ⟨l, r', hl, rfl⟩
    · rw [fileLines_no_nl hr] at h; cases h
    · rw [fileLines_append hl] at h; cases h
  unfold tokenRun
  rw [e1] at h1 ⊢
  simp only [List.headD_cons]
  cases hp : H.parse H.parser (body ++ nl) with
  | mk p' res =>
    cases res with
    | error e => simp only [new, parseNextLine, e2, Except.ok_bind', hp]
    | ok es =>
      dsimp only
      have hnew : new H data = .ok (.ok { scopes := H.scopes, parser := p', lines := lines', currentLine := some (body ++ nl), byteOffset := 0, position := ⟨0, 0⟩, lineEvents := es, error := none }) := by
        simp only [new, parseNextLine, e2, Except.ok_bind', hp]
      refine ⟨_, hnew, ?_⟩
      dsimp only at h1
      generalize (linesRun S.segs 0 H.scopes H.parser ((body ++ nl) :: ls')).1 = ts at h1 ⊢
      generalize (linesRun S.segs 0 H.scopes H.parser ((body ++ nl) :: ls')).2 = r at h1 ⊢
      have hnext : next S (H := H) { scopes := H.scopes, parser := H.parser, lines := LineIter.new data, currentLine := none, byteOffset := 0, position := ⟨0, 0⟩, lineEvents := [], error := none } =
          .ok (some .newline, { scopes := H.scopes, parser := p', lines := lines', currentLine := some (body ++ nl), byteOffset := 0, position := ⟨0, 0⟩, lineEvents := es, error := none }) := by
        simp only [next, buildNextToken, Except.ok_bind', parseNextLine, e2, hp, Option.isSome_some, if_true]
      match r, h1 with
      | none, ⟨it', h, h'⟩ =>
        cases h with
        | stop k => rw [hnext] at k; cases k
        | next k k' => rw [hnext] at k; cases k; exact ⟨it', k', h'⟩
      | some (some e), ⟨it', h, h'⟩ =>
        cases h with
        | stop k => rw [hnext] at k; cases k
        | next k k' => rw [hnext] at k; cases k; exact ⟨it', k', h'⟩
      | some none, h =>
        cases h with
        | now k => rw [hnext] at k; cases k
        | next k k' => rw [hnext] at k; cases k; exact k'

/-- Without a panic it is the stream. -/
theorem lineRun_stream (segs : Text → List Text) (n : Nat) (es : List (Nat × H.Op)) : ∀ (o col : Nat) (k : H.Scopes) (left : Option Text) (ts : List (Token H.Scopes)),
    (∀ k', lineRun segs n o col k left es = (ts, .ok k') → lineStream segs n o col k (left.getD []) es = (ts, .ok k')) ∧
    ∀ e, lineRun segs n o col k left es = (ts, .error (some e)) → lineStream segs n o col k (left.getD []) es = (ts, .error e) := by
  induction es with
  | nil =>
    intro o col k left ts
    refine ⟨fun k' h => ?_, fun e h => ?_⟩
    · simp only [lineRun, Prod.mk.injEq, Except.ok.injEq] at h
      simp only [lineStream, Prod.mk.injEq, Except.ok.injEq]
      exact h
    · simp only [lineRun, Prod.mk.injEq] at h
      cases h.2
  | cons e es ih =>
    obtain ⟨off, op⟩ := e
    intro o col k left ts
    simp only [lineRun, lineStream]
    cases hap : H.apply k op with
    | mk k1 er =>
      by_cases hle : off ≤ o
      · simp only [if_pos hle]
        cases er with
        | some er =>
          dsimp only
          refine ⟨fun k' h => ?_, fun e h => ?_⟩
          · cases h
          · cases h; rfl
        | none => exact ih _ _ _ _ _
      · simp only [if_neg hle]
        cases left with
        | none =>
          dsimp only
          refine ⟨fun k' h => ?_, fun e h => ?_⟩ <;> cases h
        | some r =>
          dsimp only
          split
          · refine ⟨fun k' h => ?_, fun e h => ?_⟩ <;> cases h
          · cases er with
            | some er =>
              dsimp only
              refine ⟨fun k' h => ?_, fun e h => ?_⟩
              · cases h
              · cases h; rfl
            | none =>
              dsimp only [Option.getD_some]
              have hd : (if off - o ≤ blen r then some (splitBytes (off - o) r).2 else none).getD [] = (splitBytes (off - o) r).2 := by
                split
                · rfl
                · rw [splitBytes_all r (by omega)]; rfl
              have := ih off (col + (segs (splitBytes (off - o) r).1).length) k1 (if off - o ≤ blen r then some (splitBytes (off - o) r).2 else none)
              rw [hd] at this
              generalize lineRun segs n off (col + (segs (splitBytes (off - o) r).1).length) k1 (if off - o ≤ blen r then some (splitBytes (off - o) r).2 else none) es = q at this ⊢
              obtain ⟨q1, q2⟩ := q
              refine ⟨fun k' h => ?_, fun e h => ?_⟩
              · cases h
                rw [(this q1).1 k' rfl]
              · cases h
                rw [(this q1).2 e rfl]

theorem linesRun_stream (segs : Text → List Text) (ls : List Text) : ∀ (n : Nat) (k : H.Scopes) (p : H.Parser),
    (linesRun segs n k p ls).2 ≠ some none →
    (streamFrom segs n k p ls).1 = (linesRun segs n k p ls).1 ∧ (linesRun segs n k p ls).2 = (streamFrom segs n k p ls).2.map some := by
  induction ls with
  | nil => intro n k p _; exact ⟨rfl, rfl⟩
  | cons l ls ih =>
    intro n k p
    simp only [linesRun, streamFrom]
    cases hp : H.parse p l with
    | mk p' res =>
      cases res with
      | error e => intro _; exact ⟨rfl, rfl⟩
      | ok es =>
        dsimp only
        cases hr : lineRun segs n 0 0 k (some (l.filter (· != '\n'))) es with
        | mk ts r =>
          obtain ⟨h1, h2⟩ := lineRun_stream segs n es 0 0 k (some (l.filter (· != '\n'))) ts
          rw [Option.getD_some] at h1 h2
          match r, hr with
          | .ok k', hr =>
            rw [h1 k' hr]
            intro hne
            obtain ⟨a, b⟩ := ih (n + 1) k' p' hne
            exact ⟨by simp only [a], b⟩
          | .error (some e), hr => rw [h2 e hr]; intro _; exact ⟨rfl, rfl⟩
          | .error none, hr => intro hne; exact absurd rfl hne

/-- Offsets that fit never make it panic. -/
theorem lineRun_fit (segs : Text → List Text) (n : Nat) (body : Text) (m : Nat) (es : List (Nat × H.Op)) (hf : ∀ e ∈ es,
      (∃ x y, body = x ++ y ∧ e.1 = blen x) ∨ (blen body < e.1 ∧ e.1 = m)) :
    ∀ (o col : Nat) (k : H.Scopes) (left : Option Text), ((∃ a rest, left = some rest ∧ body = a ++ rest ∧ o = blen a) ∨ (left = none ∧ blen body < o ∧ o = m)) →
    (lineRun segs n o col k left es).2 ≠ .error none := by
  induction es with
  | nil => intro o col k left _ h; cases h
  | cons e es ih =>
    obtain ⟨off, op⟩ := e
    have ih := ih (fun e h => hf e (by simp [h]))
    intro o col k left ho
    simp only [lineRun]
    cases hap : H.apply k op with
    | mk k1 er =>
      by_cases hle : off ≤ o
      · rw [if_pos hle]
        cases er with
        | some er => dsimp only; intro h; cases h
        | none => exact ih _ _ _ _ ho
      · rw [if_neg hle]
        rcases ho with ⟨a, rest, rfl, hb, rfl⟩ | ⟨rfl, ho1, ho2⟩
        · dsimp only
          have hsp : (∃ v r', rest = v ++ r' ∧ off = blen a + blen v) ∨ (blen body < off ∧ off = m) := by
            rcases hf (off, op) (by simp) with ⟨x, y, hx, hx'⟩ | h
            · dsimp only at hx'
              obtain ⟨v, hv1, hv2⟩ := prefix_of_blen (x := a) (y := rest) (u := x) (w := y) (hb.symm.trans hx) (by omega)
              exact Or.inl ⟨v, y, hv2, by rw [hx', hv1, blen_append]⟩
            · exact Or.inr h
          have hlen : blen body = blen a + blen rest := by rw [hb, blen_append]
          rcases hsp with ⟨v, r', hv, hoff⟩ | ⟨h1, h2⟩
          · have he : off - blen a = blen v := by omega
            rw [he, hv, splitBytes_append]
            dsimp only
            rw [if_neg (by simp)]
            cases er with
            | some er => dsimp only; intro h; cases h
            | none =>
              refine ih _ _ _ _ (Or.inl ⟨a ++ v, r', ?_, by rw [hb, hv]; simp, by rw [blen_append]; omega⟩)
              rw [if_pos (by rw [blen_append]; omega)]
          · rw [splitBytes_all rest (by omega)]
            dsimp only
            rw [if_neg (by simp)]
            cases er with
            | some er => dsimp only; intro h; cases h
            | none => exact ih _ _ _ _ (Or.inr ⟨if_neg (by omega), h1, h2⟩)
        · exfalso
          rcases hf (off, op) (by simp) with ⟨x, y, hx, hx'⟩ | ⟨_, h⟩
          · dsimp only at hx'
            rw [hx, blen_append] at ho1; omega
          · dsimp only at h; omega

theorem linesRun_fit (hF : OffsetsFit H) (segs : Text → List Text) (ls : List Text) : ∀ (n : Nat) (k : H.Scopes) (p : H.Parser),
    (linesRun segs n k p ls).2 ≠ some none := by
  induction ls with
  | nil => intro n k p h; cases h
  | cons l ls ih =>
    intro n k p
    simp only [linesRun]
    cases hp : H.parse p l with
    | mk p' res =>
      cases res with
      | error e => dsimp only; intro h; cases h
      | ok es =>
        dsimp only
        obtain ⟨m, hm⟩ : ∃ m, ∀ e ∈ es, (∃ x y, l.filter (· != '\n') = x ++ y ∧ e.1 = blen x) ∨ (blen (l.filter (· != '\n')) < e.1 ∧ e.1 = m) := by
          by_cases hx : ∃ e ∈ es, blen (l.filter (· != '\n')) < e.1
          · obtain ⟨e, he, hl⟩ := hx
            refine ⟨e.1, fun e' he' => ?_⟩
            rcases hF p l p' es hp e' he' with h | ⟨h, h'⟩
            · exact Or.inl h
            · exact Or.inr ⟨h, (h' e he hl).symm⟩
          · refine ⟨0, fun e' he' => ?_⟩
            rcases hF p l p' es hp e' he' with h | ⟨h, h'⟩
            · exact Or.inl h
            · exact absurd ⟨e', he', h⟩ hx
        have := lineRun_fit segs n (l.filter (· != '\n')) m es hm 0 0 k (some (l.filter (· != '\n'))) (Or.inl ⟨[], _, rfl, rfl, rfl⟩)
        generalize lineRun segs n 0 0 k (some (l.filter (· != '\n'))) es = r at this ⊢
        obtain ⟨ts, r⟩ := r
        match r with
        | .ok k' => exact ih _ _ _
        | .error (some e) => dsimp only; intro h; cases h
        | .error none => exact absurd rfl this

/-! ### The tokens before a panic -/

/-- Each lexeme is where the tokens before it end. -/
def PlacedFrom (segs : Text → List Text) : Position → List (Token H.Scopes) → Prop
  | _, [] => True
  | q, .newline :: ts => PlacedFrom segs ⟨q.line + 1, 0⟩ ts
  | q, .lexeme v _ p :: ts => p = q ∧ PlacedFrom segs ⟨q.line, q.offset + (segs v).length⟩ ts

/-- Where the tokens end. -/
def endsAt (segs : Text → List Text) (q : Position) (ts : List (Token H.Scopes)) : Position :=
  ts.foldl (fun p t => match t with
    | .newline => ⟨p.line + 1, 0⟩
    | .lexeme v _ _ => ⟨p.line, p.offset + (segs v).length⟩) q

theorem PlacedFrom.append {segs : Text → List Text} : ∀ {a b : List (Token H.Scopes)} {q : Position}, PlacedFrom segs q a → PlacedFrom segs (endsAt segs q a) b →
    PlacedFrom segs q (a ++ b)
  | [], _, _, _, h => h
  | .newline :: a, _, _, h, h' => PlacedFrom.append (a := a) h h'
  | .lexeme _ _ _ :: a, _, _, h, h' => ⟨h.1, PlacedFrom.append (a := a) h.2 h'⟩

theorem PlacedFrom.at {segs : Text → List Text} {v : Text} {k : H.Scopes} {p : Position} {y : List (Token H.Scopes)} : ∀ {x : List (Token H.Scopes)} {q : Position},
    PlacedFrom segs q (x ++ .lexeme v k p :: y) → p = endsAt segs q x
  | [], _, h => h.1
  | .newline :: x, _, h => PlacedFrom.at (x := x) h
  | .lexeme _ _ _ :: x, _, h => PlacedFrom.at (x := x) h.2

theorem render_append' (a b : List (Token H.Scopes)) : render (a ++ b) = render a ++ render b := by
  induction a with
  | nil => rfl
  | cons t a ih => cases t <;> simp [render, ih]

/-- The tokens of a line: what they read, where they are, how many they are. -/
theorem lineRun_reads (segs : Text → List Text) (n : Nat) (es : List (Nat × H.Op)) : ∀ (o col : Nat) (k : H.Scopes) (left : Option Text),
    PlacedFrom segs ⟨n, col⟩ (lineRun segs n o col k left es).1 ∧
    (∀ t ∈ (lineRun segs n o col k left es).1, ∃ v k p, t = .lexeme v k p) ∧
    render (lineRun segs n o col k left es).1 <+: left.getD [] ∧
    (∀ k', (lineRun segs n o col k left es).2 = .ok k' → render (lineRun segs n o col k left es).1 = left.getD []) ∧
    (lineRun segs n o col k left es).1.length ≤ (match left with | none => 0 | some r => blen r + 1) := by
  induction es with
  | nil =>
    intro o col k left
    simp only [lineRun]
    by_cases h : left.getD [] = []
    · rw [if_pos h]
      exact ⟨trivial, by simp, by rw [h]; exact List.nil_prefix, fun _ _ => h.symm, Nat.zero_le _⟩
    · rw [if_neg h]
      refine ⟨⟨rfl, trivial⟩, by simp, by simp [render], fun _ _ => by simp [render], ?_⟩
      cases left with
      | none => exact absurd rfl h
      | some r => simp
  | cons e es ih =>
    obtain ⟨off, op⟩ := e
    intro o col k left
    have stop : ∀ e : Option H.Err, PlacedFrom segs ⟨n, col⟩ (([], .error e) : List (Token H.Scopes) × Except (Option H.Err) H.Scopes).1 ∧
        (∀ t ∈ (([], .error e) : List (Token H.Scopes) × Except (Option H.Err) H.Scopes).1, ∃ v k p, t = .lexeme v k p) ∧
        render (([], .error e) : List (Token H.Scopes) × Except (Option H.Err) H.Scopes).1 <+: left.getD [] ∧
        (∀ k', (([], .error e) : List (Token H.Scopes) × Except (Option H.Err) H.Scopes).2 = .ok k' →
          render (([], .error e) : List (Token H.Scopes) × Except (Option H.Err) H.Scopes).1 = left.getD []) ∧
        (([], .error e) : List (Token H.Scopes) × Except (Option H.Err) H.Scopes).1.length ≤ (match left with | none => 0 | some r => blen r + 1) :=
      fun e => ⟨trivial, by simp, List.nil_prefix, fun _ h => (by cases h), Nat.zero_le _⟩
    simp only [lineRun]
    cases hap : H.apply k op with
    | mk k1 er =>
      by_cases hle : off ≤ o
      · simp only [if_pos hle]
        cases er with
        | some er => exact stop (some er)
        | none => exact ih _ _ _ _
      · simp only [if_neg hle]
        cases left with
        | none => exact stop none
        | some r =>
          dsimp only
          by_cases hbad : (splitBytes (off - o) r).2 ≠ [] ∧ blen (splitBytes (off - o) r).1 ≠ off - o
          · simp only [if_pos hbad]; exact stop none
          · simp only [if_neg hbad]
            cases er with
            | some er => exact stop (some er)
            | none =>
              dsimp only
              have hd : (if off - o ≤ blen r then some (splitBytes (off - o) r).2 else none).getD [] = (splitBytes (off - o) r).2 := by
                split
                · rfl
                · rw [splitBytes_all r (by omega)]; rfl
              obtain ⟨h1, h2, h3, h4, h5⟩ := ih off (col + (segs (splitBytes (off - o) r).1).length) k1 (if off - o ≤ blen r then some (splitBytes (off - o) r).2 else none)
              rw [hd] at h3 h4
              have hj := splitBytes_join (off - o) r
              refine ⟨⟨rfl, h1⟩, ?_, ?_, ?_, ?_⟩
              · intro t ht
                rcases List.mem_cons.mp ht with rfl | ht
                · exact ⟨_, _, _, rfl⟩
                · exact h2 t ht
              · rw [Option.getD_some]
                conv => rhs; rw [← hj]
                exact (List.prefix_append_right_inj _).mpr h3
              · intro k' hk
                rw [Option.getD_some, render, h4 k' hk, hj]
              · rw [List.length_cons]
                by_cases hin : off - o ≤ blen r
                · rw [if_pos hin] at h5 ⊢
                  dsimp only at h5
                  have hl : blen (splitBytes (off - o) r).1 = off - o := by
                    by_cases h : (splitBytes (off - o) r).2 = []
                    · have := splitBytes_le (off - o) r
                      have e : blen r = blen (splitBytes (off - o) r).1 := by
                        conv => lhs; rw [← hj, h, List.append_nil]
                      omega
                    · exact Classical.byContradiction fun h' => hbad ⟨h, h'⟩
                  have : blen r = blen (splitBytes (off - o) r).1 + blen (splitBytes (off - o) r).2 := by
                    rw [← blen_append, hj]
                  omega
                · rw [if_neg hin] at h5 ⊢
                  dsimp only at h5
                  omega

/-- What the lines read as, a newline before each. -/
def rejoin : List Text → Text
  | [] => []
  | l :: ls => '\n' :: l.filter (· != '\n') ++ rejoin ls

theorem filter_no_nl {l : Text} (h : '\n' ∉ l) : l.filter (· != '\n') = l :=
  List.filter_eq_self.mpr fun c hc => by
    have : c ≠ '\n' := fun e => h (e ▸ hc)
    simpa using this

theorem rejoin_fileLines (data : Text) : rejoin (fileLines data) = '\n' :: data := by
  suffices ∀ m (data : Text), data.length ≤ m → rejoin (fileLines data) = '\n' :: data from this _ data (Nat.le_refl _)
  intro m
  induction m with
  | zero =>
    intro data h
    have : data = [] := List.length_eq_zero_iff.mp (Nat.le_zero.mp h)
    subst this; rfl
  | succ m ih =>
    intro data h
    rcases line_cases data with hr | ⟨l, r, hl, rfl⟩
    · rw [fileLines_no_nl hr, rejoin, rejoin, filter_no_nl hr]; simp
    · rw [fileLines_append hl, rejoin, ih r (by simp at h; omega), List.filter_append, filter_no_nl hl]
      simp

theorem blen_rejoin (ls : List Text) : blen (rejoin ls) = ls.length + (ls.map fun l => blen (l.filter (· != '\n'))).sum := by
  induction ls with
  | nil => rfl
  | cons l ls ih =>
    rw [rejoin, List.cons_append, blen_cons, blen_append, ih]
    have : Char.utf8Size '\n' = 1 := by decide
    simp only [this, List.length_cons, List.map_cons, List.sum_cons]
    omega

theorem linesRun_reads (segs : Text → List Text) (ls : List Text) : ∀ (n : Nat) (k : H.Scopes) (p : H.Parser),
    (∀ q : Position, q.line + 1 = n → PlacedFrom segs q (linesRun segs n k p ls).1) ∧ render (linesRun segs n k p ls).1 <+: rejoin ls ∧
    ((linesRun segs n k p ls).2 = none → render (linesRun segs n k p ls).1 = rejoin ls) ∧
    (linesRun segs n k p ls).1.length ≤ 2 * ls.length + (ls.map fun l => blen (l.filter (· != '\n'))).sum := by
  induction ls with
  | nil => intro n k p; exact ⟨fun _ _ => trivial, List.nil_prefix, fun _ => rfl, Nat.zero_le _⟩
  | cons l ls ih =>
    intro n k p
    simp only [linesRun]
    cases hp : H.parse p l with
    | mk p' res =>
      cases res with
      | error e => exact ⟨fun _ _ => trivial, List.nil_prefix, fun h => (by cases h), Nat.zero_le _⟩
      | ok es =>
        dsimp only
        obtain ⟨h1, h2, h3, h4, h5⟩ := lineRun_reads segs n es 0 0 k (some (l.filter (· != '\n')))
        generalize lineRun segs n 0 0 k (some (l.filter (· != '\n'))) es = r at h1 h2 h3 h4 h5 ⊢
        obtain ⟨ts, r⟩ := r
        dsimp only at h1 h2 h3 h4 h5
        rw [Option.getD_some] at h3 h4
        have hpl : ∀ q : Position, q.line + 1 = n → PlacedFrom segs q (.newline :: ts) := by
          intro q hq
          have e : (⟨q.line + 1, 0⟩ : Position) = ⟨n, 0⟩ := by rw [hq]
          show PlacedFrom segs ⟨q.line + 1, 0⟩ ts
          rw [e]; exact h1
        cases r with
        | error e =>
          refine ⟨hpl, ?_, fun h => (by cases h), ?_⟩
          · rw [render, rejoin, List.cons_append]
            exact (List.prefix_cons_inj _).mpr (h3.trans (List.prefix_append _ _))
          · simp only [List.length_cons, List.map_cons, List.sum_cons]; omega
        | ok k' =>
          dsimp only
          have hline : ∀ (ts : List (Token H.Scopes)) (a : Position), (∀ t ∈ ts, ∃ v k p, t = .lexeme v k p) → (endsAt segs a ts).line = a.line := by
            intro ts
            induction ts with
            | nil => intro a _; rfl
            | cons t ts ih =>
              intro a h
              obtain ⟨v, k, p, rfl⟩ := h t (by simp)
              exact ih ⟨a.line, a.offset + (segs v).length⟩ (fun t h' => h t (by simp [h']))
          obtain ⟨j1, j2, j3, j4⟩ := ih (n + 1) k' p'
          have hr := h4 k' rfl
          refine ⟨fun q hq => (hpl q hq).append (j1 _ ?_), ?_, fun h => ?_, ?_⟩
          · show (endsAt segs ⟨q.line + 1, 0⟩ ts).line + 1 = n + 1
            rw [hline _ _ h2, hq]
          · rw [List.cons_append, render, render_append', hr, rejoin, List.cons_append]
            exact (List.prefix_cons_inj _).mpr ((List.prefix_append_right_inj _).mpr j2)
          · rw [List.cons_append, render, render_append', hr, rejoin, List.cons_append, j3 h]
          · simp only [List.length_cons, List.cons_append, List.length_append, List.map_cons, List.sum_cons]; omega

/-- The first token is the newline before the first line. -/
theorem linesRun_head (segs : Text → List Text) (n : Nat) (k : H.Scopes) (p : H.Parser) (l : Text) (ls : List Text) {es} (h : (H.parse p l).2 = .ok es) :
    ∃ ts, (linesRun segs n k p (l :: ls)).1 = .newline :: ts := by
  simp only [linesRun]
  cases hp : H.parse p l with
  | mk p' res =>
    rw [hp] at h
    dsimp only at h
    subst h
    dsimp only
    generalize lineRun segs n 0 0 k (some (l.filter (· != '\n'))) es = r
    obtain ⟨ts, r⟩ := r
    cases r <;> exact ⟨_, rfl⟩

theorem linesRun_reads_first (segs : Text → List Text) (ls : List Text) (k : H.Scopes) (p : H.Parser) (l : Text) {es} (h : (H.parse p l).2 = .ok es) :
    PlacedFrom segs ⟨0, 0⟩ (linesRun segs 0 k p (l :: ls)).1.tail := by
  simp only [linesRun]
  cases hp : H.parse p l with
  | mk p' res =>
    rw [hp] at h
    dsimp only at h
    subst h
    dsimp only
    obtain ⟨h1, h2, -, -, -⟩ := lineRun_reads segs 0 es 0 0 k (some (l.filter (· != '\n')))
    generalize lineRun segs 0 0 0 k (some (l.filter (· != '\n'))) es = r at h1 h2 ⊢
    obtain ⟨ts, r⟩ := r
    cases r with
    | error e => exact h1
    | ok k' =>
      have hline : ∀ (ts : List (Token H.Scopes)) (a : Position), (∀ t ∈ ts, ∃ v k p, t = .lexeme v k p) → (endsAt segs a ts).line = a.line := by
        intro ts
        induction ts with
        | nil => intro a _; rfl
        | cons t ts ih =>
          intro a h
          obtain ⟨v, k, p, rfl⟩ := h t (by simp)
          exact ih ⟨a.line, a.offset + (segs v).length⟩ (fun t h' => h t (by simp [h']))
      exact PlacedFrom.append (a := ts) h1 ((linesRun_reads segs ls 1 k' p').1 _ (by rw [hline _ _ h2]))

theorem fileLines_length (data : Text) : (fileLines data).length = data.count '\n' + 1 := by
  suffices ∀ m (data : Text), data.length ≤ m → (fileLines data).length = data.count '\n' + 1 from this _ data (Nat.le_refl _)
  intro m
  induction m with
  | zero =>
    intro data h
    have : data = [] := List.length_eq_zero_iff.mp (Nat.le_zero.mp h)
    subst this; rfl
  | succ m ih =>
    intro data h
    rcases line_cases data with hr | ⟨l, r, hl, rfl⟩
    · rw [fileLines_no_nl hr, List.count_eq_zero.mpr hr]; rfl
    · rw [fileLines_append hl, List.length_cons, ih r (by simp at h; omega), List.count_append, List.count_eq_zero.mpr hl]
      simp

theorem tokenRun_reads (segs : Text → List Text) {data : Text} {ts : List (Token H.Scopes)} {r} (h : tokenRun segs H data = .ok (ts, r)) :
    PlacedFrom segs ⟨0, 0⟩ ts ∧ render ts <+: data ∧ (r = none → render ts = data) ∧ ts.length ≤ blen data + data.count '\n' + 1 := by
  unfold tokenRun at h
  cases hp : (H.parse H.parser ((fileLines data).headD [])).2 with
  | error e => rw [hp] at h; cases h
  | ok es =>
    rw [hp] at h
    have hj := rejoin_fileLines data
    have hl := fileLines_length data
    have hb := blen_rejoin (fileLines data)
    rw [hj, blen_cons] at hb
    have h1 : Char.utf8Size '\n' = 1 := by decide
    cases hf : fileLines data with
    | nil => rw [hf] at hl; simp at hl
    | cons l ls =>
      rw [hf] at h hp hj hl hb
      obtain ⟨ts', ht⟩ := linesRun_head segs 0 H.scopes H.parser l ls hp
      have hfirst := linesRun_reads_first segs ls H.scopes H.parser l hp
      obtain ⟨-, k2, k3, k4⟩ := linesRun_reads segs (l :: ls) 0 H.scopes H.parser
      dsimp only at h
      cases h
      rw [ht, List.tail_cons] at hfirst ⊢
      rw [ht, hj] at k2
      rw [ht, hj] at k3
      rw [ht] at k4
      refine ⟨hfirst, (List.prefix_cons_inj _).mp k2, fun h => (List.cons.inj (k3 h)).2, ?_⟩
      rw [List.length_cons] at k4
      omega

end Scribe.TokenIter
