import Verif.Spec.TokenUnwind
import Verif.Proofs.Resume
/-! Every call of a token iterator, with panics caught. -/
namespace Scribe.TokenUnwind
open Spec
open TokenIter (Passed endOfLine_eq strSlice_not splitBytes_all splitBytes_join splitBytes_le splitBytes_append prefix_of_blen fileLines_no_nl fileLines_append)
variable {S : Segmenter} {H : Highlighter} {boom : H.Err → Bool}

/-- Calling `next` shows this, call by call; after that it returns `None` for ever and changes nothing. -/
inductive Goes (S : Segmenter) (boom : H.Err → Bool) : TokenIter H → List (Out (Option (Token H.Scopes)) × Option H.Err) → Prop
  | ended {it it'} : next S boom it = (.done none, it') → next S boom it' = (.done none, it') → it'.error = it.error → Goes S boom it []
  | call {it it1 o w os} : next S boom it = (o, it1) → it1.error = w → Goes S boom it1 os → Goes S boom it ((o, w) :: os)

theorem Goes.of_next_eq {a b : TokenIter H} (h : next S boom a = next S boom b) (he : b.error = a.error) {os} (hb : Goes S boom b os) : Goes S boom a os := by
  cases hb with
  | ended k1 k2 k3 => exact .ended (h.trans k1) k2 (k3.trans he)
  | call k k' k'' => exact .call (h.trans k) k' k''

theorem unwound_of_build {a b : TokenIter H} (h : buildNextToken S boom a = buildNextToken S boom b) : next S boom a = next S boom b := by
  simp only [next, h]

theorem noted_append (w : Option H.Err) (x y : List (Happens H)) : noted w (x ++ y) = noted w x ++ noted (errorAfter w x) y := by
  induction x generalizing w with
  | nil => rfl
  | cons c x ih => cases c <;> simp only [List.cons_append, noted, ih, errorAfter]

/-- What a value where `syntect` fails does to the outcome and to the field `error`. -/
theorem of_boom (w : Option H.Err) (e : H.Err) (cs : List (Happens H)) :
    noted w (.of boom e :: cs) = ((if boom e then .unwound else .done none), (if boom e then w else some e)) :: noted (if boom e then w else some e) cs ∧
    errorAfter w (.of boom e :: cs) = errorAfter (if boom e then w else some e) cs := by
  unfold Happens.of
  cases boom e <;> exact ⟨rfl, rfl⟩

theorem line_goes {body nl : Text} (hn : '\n' ∉ body) (hnl : nl = [] ∨ nl = ['\n']) (n : Nat) (es : List (Nat × H.Op)) :
    ∀ {it : TokenIter H} {left : Option Text} {col : Nat}, it.currentLine = some (body ++ nl) → it.lineEvents = es →
    ((∃ a rest, left = some rest ∧ body = a ++ rest ∧ it.byteOffset = blen a) ∨ (left = none ∧ blen body < it.byteOffset)) → it.position = ⟨n, col⟩ →
    ∃ it1, Passed it (lineGoes boom S.segs n it.byteOffset col it.scopes left es).2 (errorAfter it.error (lineGoes boom S.segs n it.byteOffset col it.scopes left es).1) it1 ∧
      ∀ os, Goes S boom it1 os → Goes S boom it (noted it.error (lineGoes boom S.segs n it.byteOffset col it.scopes left es).1 ++ os) := by
  have build : ∀ it : TokenIter H, it.currentLine = some (body ++ nl) → buildNextToken S boom it = buildLoop S boom (body ++ nl) (blen body) it.lineEvents it := by
    intro it hc
    simp only [buildNextToken, hc, endOfLine_eq hn hnl]
  induction es with
  | nil =>
    intro it left col hc he ho hp
    simp only [lineGoes]
    refine ⟨{ it with lineEvents := [], currentLine := none }, ?_, ?_⟩
    · refine ⟨rfl, rfl, rfl, rfl, ?_⟩
      dsimp only
      split <;> rfl
    intro os h
    by_cases hr : left.getD [] = []
    · rw [if_pos hr, noted, List.nil_append]
      refine Goes.of_next_eq (a := it) (b := { it with lineEvents := [], currentLine := none }) (unwound_of_build ?_) rfl h
      have hlt : ¬ it.byteOffset < blen body := by
        rcases ho with ⟨a, rest, rfl, hb, ho⟩ | ⟨_, ho⟩
        · change rest = [] at hr
          rw [hb, hr, ho]; simp
        · omega
      rw [build it hc, he]
      simp only [buildLoop, if_neg hlt, buildNextToken]
    · rw [if_neg hr]
      rcases ho with ⟨a, rest, rfl, hb, ho⟩ | ⟨rfl, ho⟩
      · refine Goes.call (it1 := { it with lineEvents := [], currentLine := none }) ?_ rfl h
        change rest ≠ [] at hr
        have hlt : it.byteOffset < blen body := by
          have : blen rest ≠ 0 := fun h' => hr (blen_eq_zero.mp h')
          rw [hb, blen_append]; omega
        have e1 : strSlice (body ++ nl) it.byteOffset (blen body) = .ok rest := by
          have := strSlice_append a rest nl
          rw [ho, hb, blen_append]; exact this
        simp only [next, build it hc, he, buildLoop, if_pos hlt, e1, hp, Option.getD_some]
      · exact absurd rfl hr
  | cons e es ih =>
    intro it left col hc he ho hp
    obtain ⟨off, op⟩ := e
    simp only [lineGoes]
    by_cases hle : off ≤ it.byteOffset
    · simp only [if_pos hle]
      have hgt : ¬ off > it.byteOffset := Nat.not_lt.mpr hle
      cases hap : H.apply it.scopes op with
      | mk k' er =>
        cases er with
        | some er =>
          have hnext : next S boom it = ((if boom er then .unwound else .done none), { it with lineEvents := es, scopes := k', error := if boom er then it.error else some er }) := by
            simp only [next, build it hc, he, buildLoop, if_neg hgt, hap, failed]
            cases boom er <;> rfl
          obtain ⟨it1, h1, h2⟩ := ih (it := { it with lineEvents := es, scopes := k', error := if boom er then it.error else some er }) (left := left) (col := col) hc rfl ho hp
          simp only [Option.map_some, Option.toList_some, List.singleton_append, of_boom]
          exact ⟨it1, ⟨h1.line, h1.lines, h1.parser, h1.scopes, h1.error⟩, fun os h => Goes.call hnext rfl (h2 os h)⟩
        | none =>
          have hnext : next S boom it = next S boom { it with lineEvents := es, scopes := k' } := by
            apply unwound_of_build
            rw [build it hc, build { it with lineEvents := es, scopes := k' } hc, he]
            simp only [buildLoop, if_neg hgt, hap]
          obtain ⟨it1, h1, h2⟩ := ih (it := { it with lineEvents := es, scopes := k' }) (left := left) (col := col) hc rfl ho hp
          exact ⟨it1, ⟨h1.line, h1.lines, h1.parser, h1.scopes, h1.error⟩, fun os h => Goes.of_next_eq hnext rfl (h2 os h)⟩
    · have hgt : off > it.byteOffset := Nat.not_le.mp hle
      simp only [if_neg hle]
      have panic : (∃ p, strSlice (body ++ nl) it.byteOffset (min off (blen body)) = .error p) → next S boom it = (.unwound, { it with lineEvents := es }) := by
        rintro ⟨p, h⟩
        simp only [next, build it hc, he, buildLoop, if_pos hgt, h]
      rcases ho with ⟨a, rest, rfl, hb, ho⟩ | ⟨rfl, ho⟩
      · dsimp only
        by_cases hbad : (splitBytes (off - it.byteOffset) rest).2 ≠ [] ∧ blen (splitBytes (off - it.byteOffset) rest).1 ≠ off - it.byteOffset
        · rw [if_pos hbad]
          have hnext := panic (strSlice_not ?_)
          · obtain ⟨it1, h1, h2⟩ := ih (it := { it with lineEvents := es }) (left := some rest) (col := col) hc rfl (Or.inl ⟨a, rest, rfl, hb, ho⟩) hp
            exact ⟨it1, ⟨h1.line, h1.lines, h1.parser, h1.scopes, h1.error⟩, fun os h => Goes.call hnext rfl (h2 os h)⟩
          intro x y z h1 h2 h3
          have hsp : off < blen body := by
            refine Nat.lt_of_not_le fun hge => hbad.1 ?_
            rw [splitBytes_all _ (by rw [hb, blen_append] at hge; omega)]
          rw [Nat.min_eq_left (by omega)] at h3
          obtain ⟨w, hw1, hw2⟩ := prefix_of_blen (x := x ++ y) (y := z) (u := body) (w := nl) h1.symm (by omega)
          obtain ⟨v, hv1, hv2⟩ := prefix_of_blen (x := a) (y := rest) (u := x ++ y) (w := w) (hb.symm.trans hw1) (by rw [h3]; omega)
          refine hbad.2 ?_
          have hv : off - it.byteOffset = blen v := by rw [← h3, hv1, blen_append, ho]; omega
          rw [hv2, hv, splitBytes_append]
        · rw [if_neg hbad]
          generalize hvv : splitBytes (off - it.byteOffset) rest = vr at hbad ⊢
          obtain ⟨v, rest'⟩ := vr
          have hj := splitBytes_join (off - it.byteOffset) rest
          have hl := splitBytes_le (off - it.byteOffset) rest
          rw [hvv] at hj hl
          dsimp only at hj hl hbad ⊢
          have hmin : min off (blen body) = blen a + blen v := by
            rw [hb, ← hj, blen_append, blen_append]
            by_cases hr : rest' = []
            · rw [hr]; simp; omega
            · have : blen v = off - it.byteOffset := Classical.byContradiction fun k => hbad ⟨hr, k⟩
              omega
          have hv : strSlice (body ++ nl) it.byteOffset (min off (blen body)) = .ok v := by
            have := strSlice_append a v (rest' ++ nl)
            rw [hmin, ho, hb, ← hj]
            simpa using this
          have hleft : (∃ a' rest'', (if off - it.byteOffset ≤ blen rest then some rest' else none) = some rest'' ∧ body = a' ++ rest'' ∧ off = blen a') ∨
              ((if off - it.byteOffset ≤ blen rest then some rest' else none) = none ∧ blen body < off) := by
            by_cases hin : off - it.byteOffset ≤ blen rest
            · rw [if_pos hin]
              refine Or.inl ⟨a ++ v, rest', rfl, by rw [hb, ← hj]; simp, ?_⟩
              have : min off (blen body) = off := Nat.min_eq_left (by rw [hb, blen_append]; omega)
              rw [blen_append, ← hmin, this]
            · rw [if_neg hin]
              exact Or.inr ⟨rfl, by rw [hb, blen_append]; omega⟩
          cases hap : H.apply it.scopes op with
          | mk k' er =>
            have hnext : next S boom it = (er.elim (.done (some (.lexeme v it.scopes ⟨n, col⟩))) (fun e => if boom e then .unwound else .done none), { it with
                lineEvents := es, position := ⟨n, col + (S.segs v).length⟩, byteOffset := off, scopes := k', error := er.elim it.error (fun e => if boom e then it.error else some e) }) := by
              cases er with
              | none => simp only [next, build it hc, he, buildLoop, if_pos hgt, hv, hap, hp, Option.elim]
              | some e =>
                simp only [next, build it hc, he, buildLoop, if_pos hgt, hv, hap, hp, Option.elim, failed]
                cases boom e <;> rfl
            obtain ⟨it1, h1, h2⟩ := ih (it := { it with lineEvents := es, position := ⟨n, col + (S.segs v).length⟩, byteOffset := off, scopes := k', error := er.elim it.error (fun e => if boom e then it.error else some e) })
              (left := if off - it.byteOffset ≤ blen rest then some rest' else none) (col := col + (S.segs v).length) hc rfl hleft rfl
            cases er with
            | none => exact ⟨it1, ⟨h1.line, h1.lines, h1.parser, h1.scopes, h1.error⟩, fun os h => Goes.call hnext rfl (h2 os h)⟩
            | some e =>
              simp only [Option.elim, of_boom] at h1 h2 ⊢
              exact ⟨it1, ⟨h1.line, h1.lines, h1.parser, h1.scopes, h1.error⟩, fun os h => Goes.call hnext rfl (h2 os h)⟩
      · have hnext := panic (strSlice_not ?_)
        · obtain ⟨it1, h1, h2⟩ := ih (it := { it with lineEvents := es }) (left := none) (col := col) hc rfl (Or.inr ⟨rfl, ho⟩) hp
          exact ⟨it1, ⟨h1.line, h1.lines, h1.parser, h1.scopes, h1.error⟩, fun os h => Goes.call hnext rfl (h2 os h)⟩
        intro x y z h1 h2 h3
        rw [blen_append] at h3
        omega

theorem lines_go (ls : List Text) : ∀ {it : TokenIter H} {n : Nat}, it.currentLine = none → TokenIter.Holding it.lines n ls →
    Goes S boom it (noted it.error (linesGo boom S.segs n it.scopes it.parser ls)) := by
  induction ls with
  | nil =>
    intro it n hc h
    rcases h.next with ⟨_, h⟩ | ⟨_, _, _, _, h, _⟩
    · have : next S boom it = (.done none, it) := by
        simp only [next, buildNextToken, hc, parseNextLine, h]
        cases it; cases hc; rfl
      exact .ended this this rfl
    · cases h
  | cons l ls ih =>
    intro it n hc h
    rcases h.next with ⟨h, _⟩ | ⟨body, nl, ls', lines', h1, hn, hnl, h2, h3⟩
    · cases h
    obtain ⟨rfl, rfl⟩ := List.cons.inj h1
    simp only [linesGo, TokenIter.filter_nl hn hnl]
    cases hp : H.parse it.parser (body ++ nl) with
    | mk p' res =>
      cases res with
      | error e =>
        have hnext : next S boom it = ((if boom e then .unwound else .done none), { it with lines := lines', parser := p', currentLine := none, error := if boom e then it.error else some e }) := by
          simp only [next, buildNextToken, hc, parseNextLine, h2, hp, failed]
          cases boom e <;> rfl
        dsimp only
        rw [(of_boom _ _ _).1]
        exact Goes.call hnext rfl (ih (it := { it with lines := lines', parser := p', currentLine := none, error := if boom e then it.error else some e }) (n := n + 1) rfl h3)
      | ok es =>
        have hnext : next S boom it = (.done (some .newline), { it with lines := lines', parser := p', lineEvents := es, currentLine := some (body ++ nl), position := ⟨n, 0⟩, byteOffset := 0 }) := by
          simp only [next, buildNextToken, hc, parseNextLine, h2, hp, Option.isSome_some, if_true]
        obtain ⟨it1, k1, k2⟩ := line_goes (S := S) (boom := boom) hn hnl n es
          (it := { it with lines := lines', parser := p', lineEvents := es, currentLine := some (body ++ nl), position := ⟨n, 0⟩, byteOffset := 0 })
          (left := some body) (col := 0) rfl rfl (Or.inl ⟨[], body, rfl, rfl, rfl⟩) rfl
        have j := ih (it := it1) (n := n + 1) k1.line (by rw [k1.lines]; exact h3)
        rw [k1.scopes, k1.parser, k1.error] at j
        dsimp only
        rw [List.cons_append, noted, noted_append]
        exact Goes.call hnext rfl (k2 _ j)

theorem new_goes (data : Text) :
    match goRun S.segs H boom data with
    | .error e => new boom data = (if boom e then .unwound else .done (.error e))
    | .ok cs => ∃ it : TokenIter H, new boom data = .done (.ok it) ∧ it.error = none ∧ Goes S boom it (noted none cs) := by
  have hh : TokenIter.Holding (LineIter.new data) 0 (fileLines data) := .more _ (LineIter.at_new data)
  have h1 := lines_go (S := S) (H := H) (boom := boom) (fileLines data) (n := 0)
    (it := { scopes := H.scopes, parser := H.parser, lines := LineIter.new data, currentLine := none, byteOffset := 0, position := ⟨0, 0⟩, lineEvents := [], error := none }) rfl hh
  rcases hh.next with ⟨h, _⟩ | ⟨body, nl, ls', lines', e1, hn, hnl, e2, _⟩
  · rcases line_cases data with hr | ⟨l, r', hl, rfl⟩
    · rw [fileLines_no_nl hr] at h; cases h
    · rw [fileLines_append hl] at h; cases h
  unfold goRun
  rw [e1] at h1 ⊢
  simp only [List.headD_cons]
  cases hp : H.parse H.parser (body ++ nl) with
  | mk p' res =>
    cases res with
    | error e =>
      simp only [new, parseNextLine, e2, hp, failed]
      cases boom e <;> rfl
    | ok es =>
      dsimp only
      refine ⟨{ scopes := H.scopes, parser := p', lines := lines', currentLine := some (body ++ nl), byteOffset := 0, position := ⟨0, 0⟩, lineEvents := es, error := none }, ?_, rfl, ?_⟩
      · simp only [new, parseNextLine, e2, hp]
      have hhd : ∃ cs, linesGo boom S.segs 0 H.scopes H.parser ((body ++ nl) :: ls') = .token .newline :: cs := by
        simp only [linesGo, hp]
        exact ⟨_, rfl⟩
      obtain ⟨cs, hcs⟩ := hhd
      dsimp only at h1
      rw [hcs] at h1 ⊢
      have hnext : next S boom (H := H) { scopes := H.scopes, parser := H.parser, lines := LineIter.new data, currentLine := none, byteOffset := 0, position := ⟨0, 0⟩, lineEvents := [], error := none } =
          (.done (some .newline), { scopes := H.scopes, parser := p', lines := lines', currentLine := some (body ++ nl), byteOffset := 0, position := ⟨0, 0⟩, lineEvents := es, error := none }) := by
        simp only [next, buildNextToken, parseNextLine, e2, hp, Option.isSome_some, if_true]
      rw [noted, List.tail_cons] at *
      cases h1 with
      | call k _ k' => rw [hnext] at k; cases k; exact k'

theorem Goes.behold {it : TokenIter H} {os} (h : Goes S boom it os) :
    ∀ n, Spec.behold S boom n it = (os ++ List.replicate n (Out.done none, (os.getLast?.map Prod.snd).getD it.error)).take n := by
  induction h with
  | @ended it it' k1 k2 k3 =>
    intro n
    have key : ∀ n, Spec.behold S boom n it' = List.replicate n (.done none, it'.error) := by
      intro n
      induction n with
      | zero => rfl
      | succ n ih => rw [Spec.behold, k2]; dsimp only; rw [ih]; rfl
    simp only [List.nil_append, List.getLast?_nil, Option.map_none, Option.getD_none, List.take_replicate, Nat.min_self]
    cases n with
    | zero => rfl
    | succ n => rw [Spec.behold, k1]; dsimp only; rw [key, k3]; rfl
  | @call it it1 o w os k kw _ ih =>
    intro n
    cases n with
    | zero => rfl
    | succ n =>
      rw [Spec.behold, k]
      dsimp only
      rw [ih n, kw, List.cons_append, List.take_succ_cons]
      congr 1
      have hlast : (((o, w) :: os).getLast?.map Prod.snd).getD it.error = (os.getLast?.map Prod.snd).getD w := by
        cases os with
        | nil => rfl
        | cons x xs => rw [List.getLast?_cons_cons, List.getLast?_eq_some_getLast (by simp)]; rfl
      rw [hlast, List.replicate_succ', ← List.append_assoc, List.take_append_of_le_length (l₁ := os ++ _) (by simp)]

theorem noted_last (w : Option H.Err) (cs : List (Happens H)) : ((noted w cs).getLast?.map Prod.snd).getD w = errorAfter w cs := by
  have key : ∀ (w : Option H.Err) (x : Out (Option (Token H.Scopes)) × Option H.Err) xs, (((x :: xs).getLast?).map Prod.snd).getD w = (xs.getLast?.map Prod.snd).getD x.2 := by
    intro w x xs
    cases xs with
    | nil => rfl
    | cons y ys => rw [List.getLast?_cons_cons, List.getLast?_eq_some_getLast (by simp)]; rfl
  induction cs generalizing w with
  | nil => rfl
  | cons c cs ih => cases c <;> (rw [noted, key, errorAfter]; exact ih _)

theorem noted_length (w : Option H.Err) (cs : List (Happens H)) : (noted w cs).length = cs.length := by
  induction cs generalizing w with
  | nil => rfl
  | cons c cs ih => cases c <;> simp only [noted, List.length_cons, ih]

end Scribe.TokenUnwind
