import Verif.Spec.Resume
import Verif.Proofs.Parser
/-! Every call of a token iterator. -/
namespace Scribe.TokenIter
open Spec
variable {S : Segmenter} {H : Highlighter}

/-- Calling `next` shows this, call by call; after that it panics, or returns `None` for ever and changes nothing. -/
inductive Answers (S : Segmenter) : TokenIter H → List (Option (Token H.Scopes) × Option H.Err) → Bool → Prop
  | ended {it it'} : TokenIter.next S it = .ok (none, it') → TokenIter.next S it' = .ok (none, it') → it'.error = it.error → Answers S it [] false
  | panics {it p} : TokenIter.next S it = .error p → Answers S it [] true
  | call {it it1 o w os r} : TokenIter.next S it = .ok (o, it1) → it1.error = w → Answers S it1 os r → Answers S it ((o, w) :: os) r

theorem Answers.of_next_eq {a b : TokenIter H} (h : TokenIter.next S a = TokenIter.next S b) (he : b.error = a.error) {os r} (hb : Answers S b os r) :
    Answers S a os r := by
  cases hb with
  | ended k1 k2 k3 => exact .ended (h.trans k1) k2 (k3.trans he)
  | panics k => exact .panics (h.trans k)
  | call k k' k'' => exact .call (h.trans k) k' k''

theorem lastError_append (w : Option H.Err) (x y : List (Except H.Err (Token H.Scopes))) : lastError w (x ++ y) = lastError (lastError w x) y := by
  induction x generalizing w with
  | nil => rfl
  | cons c x ih => cases c <;> exact ih _

theorem seen_append (w : Option H.Err) (x y : List (Except H.Err (Token H.Scopes))) : seen w (x ++ y) = seen w x ++ seen (lastError w x) y := by
  induction x generalizing w with
  | nil => rfl
  | cons c x ih => cases c <;> simp only [List.cons_append, seen, ih, lastError]

/-- Between two lines. -/
structure Passed (it : TokenIter H) (k : H.Scopes) (w : Option H.Err) (it1 : TokenIter H) : Prop where
  line : it1.currentLine = none
  lines : it1.lines = it.lines
  parser : it1.parser = it.parser
  scopes : it1.scopes = k
  error : it1.error = w

theorem line_calls {body nl : Text} (hn : '\n' ∉ body) (hnl : nl = [] ∨ nl = ['\n']) (n : Nat) (es : List (Nat × H.Op)) :
    ∀ {it : TokenIter H} {left : Option Text} {col : Nat}, it.currentLine = some (body ++ nl) → it.lineEvents = es →
    ((∃ a rest, left = some rest ∧ body = a ++ rest ∧ it.byteOffset = blen a) ∨ (left = none ∧ blen body < it.byteOffset)) → it.position = ⟨n, col⟩ →
    match lineCalls S.segs n it.byteOffset col it.scopes left es with
    | (cs, none) => Answers S it (seen it.error cs) true
    | (cs, some k) => ∃ it1, Passed it k (lastError it.error cs) it1 ∧ ∀ os r, Answers S it1 os r → Answers S it (seen it.error cs ++ os) r := by
  have build : ∀ it : TokenIter H, it.currentLine = some (body ++ nl) → buildNextToken S it = buildLoop S (body ++ nl) (blen body) it.lineEvents it := by
    intro it hc
    simp only [buildNextToken, hc, endOfLine_eq hn hnl, Except.ok_bind']
  induction es with
  | nil =>
    intro it left col hc he ho hp
    simp only [lineCalls]
    refine ⟨{ it with lineEvents := [], currentLine := none }, ?_, ?_⟩
    · refine ⟨rfl, rfl, rfl, rfl, ?_⟩
      dsimp only
      split <;> rfl
    intro os r h
    by_cases hr : left.getD [] = []
    · rw [if_pos hr, seen, List.nil_append]
      refine Answers.of_next_eq (a := it) (b := { it with lineEvents := [], currentLine := none }) (next_of_build ?_) rfl h
      have hlt : ¬ it.byteOffset < blen body := by
        rcases ho with ⟨a, rest, rfl, hb, ho⟩ | ⟨_, ho⟩
        · change rest = [] at hr
          rw [hb, hr, ho]; simp
        · omega
      rw [build it hc, he]
      simp only [buildLoop, if_neg hlt, buildNextToken]
    · rw [if_neg hr]
      rcases ho with ⟨a, rest, rfl, hb, ho⟩ | ⟨rfl, ho⟩
      · refine Answers.call (it1 := { it with lineEvents := [], currentLine := none }) ?_ rfl h
        change rest ≠ [] at hr
        have hlt : it.byteOffset < blen body := by
          have : blen rest ≠ 0 := fun h' => hr (blen_eq_zero.mp h')
          rw [hb, blen_append]; omega
        have e1 : strSlice (body ++ nl) it.byteOffset (blen body) = .ok rest := by
          have := strSlice_append a rest nl
          rw [ho, hb, blen_append]; exact this
        simp only [next, build it hc, he, buildLoop, if_pos hlt, e1, Except.ok_bind', hp, Option.getD_some]
      · exact absurd rfl hr
  | cons e es ih =>
    intro it left col hc he ho hp
    obtain ⟨off, op⟩ := e
    simp only [lineCalls]
    by_cases hle : off ≤ it.byteOffset
    · simp only [if_pos hle]
      have hgt : ¬ off > it.byteOffset := Nat.not_lt.mpr hle
      cases hap : H.apply it.scopes op with
      | mk k' er =>
        cases er with
        | some er =>
          have hnext : next S it = .ok (none, { it with lineEvents := es, scopes := k', error := some er }) := by
            simp only [next, build it hc, he, buildLoop, if_neg hgt, Except.ok_bind', hap]
          have := ih (it := { it with lineEvents := es, scopes := k', error := some er }) (left := left) (col := col) hc rfl ho hp
          dsimp only at this ⊢
          generalize lineCalls S.segs n it.byteOffset col k' left es = r at this ⊢
          obtain ⟨cs, r⟩ := r
          cases r with
          | none => exact Answers.call hnext rfl this
          | some k =>
            obtain ⟨it1, h1, h2⟩ := this
            exact ⟨it1, ⟨h1.line, h1.lines, h1.parser, h1.scopes, h1.error⟩, fun os r h => Answers.call hnext rfl (h2 os r h)⟩
        | none =>
          have hnext : next S it = next S { it with lineEvents := es, scopes := k' } := by
            apply next_of_build
            rw [build it hc, build { it with lineEvents := es, scopes := k' } hc, he]
            simp only [buildLoop, if_neg hgt, hap]
          have := ih (it := { it with lineEvents := es, scopes := k' }) (left := left) (col := col) hc rfl ho hp
          dsimp only at this ⊢
          generalize lineCalls S.segs n it.byteOffset col k' left es = r at this ⊢
          obtain ⟨cs, r⟩ := r
          cases r with
          | none => exact Answers.of_next_eq hnext rfl this
          | some k =>
            obtain ⟨it1, h1, h2⟩ := this
            exact ⟨it1, ⟨h1.line, h1.lines, h1.parser, h1.scopes, h1.error⟩, fun os r h => Answers.of_next_eq hnext rfl (h2 os r h)⟩
    · have hgt : off > it.byteOffset := Nat.not_le.mp hle
      simp only [if_neg hle]
      have panic : (∃ p, strSlice (body ++ nl) it.byteOffset (min off (blen body)) = .error p) → Answers S it [] true := by
        rintro ⟨p, h⟩
        refine .panics (p := p) ?_
        simp only [next, build it hc, he, buildLoop, if_pos hgt, h]
        rfl
      rcases ho with ⟨a, rest, rfl, hb, ho⟩ | ⟨rfl, ho⟩
      · dsimp only
        by_cases hbad : (splitBytes (off - it.byteOffset) rest).2 ≠ [] ∧ blen (splitBytes (off - it.byteOffset) rest).1 ≠ off - it.byteOffset
        · rw [if_pos hbad]
          refine panic (strSlice_not ?_)
          intro x y z h1 h2 h3
          have hsp : off < blen body := by
            refine Nat.lt_of_not_le fun hge => hbad.1 ?_
            rw [splitBytes_all _ (by rw [hb, blen_append] at hge; omega)]
          rw [Nat.min_eq_left (by omega)] at h3
          obtain ⟨w, hw1, hw2⟩ := prefix_of_blen (x := x ++ y) (y := z) (u := body) (w := nl) h1.symm (by omega)
          obtain ⟨v, hv1, hv2⟩ := prefix_of_blen (x := a) (y := rest) (u := x ++ y) (w := w) (hb.symm.trans hw1) (by rw [h3]; omega)
          refine hbad.2 ?_
          have hv : off - it.byteOffset = blen v := by rw [← h3, hv1, blen_append, ho]; omega
          rw [hv2, hv, splitBytes_append]
        · rw [if_neg hbad]
          generalize hvv : splitBytes (off - it.byteOffset) rest = vr at hbad ⊢
          obtain ⟨v, rest'⟩ := vr
          have hj := splitBytes_join (off - it.byteOffset) rest
          have hl := splitBytes_le (off - it.byteOffset) rest
          rw [hvv] at hj hl
          dsimp only at hj hl hbad ⊢
          have hmin : min off (blen body) = blen a + blen v := by
            rw [hb, ← hj, blen_append, blen_append]
            by_cases hr : rest' = []
            · rw [hr]; simp; omega
            · have : blen v = off - it.byteOffset := Classical.byContradiction fun k => hbad ⟨hr, k⟩
              omega
          have hv : strSlice (body ++ nl) it.byteOffset (min off (blen body)) = .ok v := by
            have := strSlice_append a v (rest' ++ nl)
            rw [hmin, ho, hb, ← hj]
            simpa using this
          have hleft : (∃ a' rest'', (if off - it.byteOffset ≤ blen rest then some rest' else none) = some rest'' ∧ body = a' ++ rest'' ∧ off = blen a') ∨
              ((if off - it.byteOffset ≤ blen rest then some rest' else none) = none ∧ blen body < off) := by
            by_cases hin : off - it.byteOffset ≤ blen rest
            · rw [if_pos hin]
              refine Or.inl ⟨a ++ v, rest', rfl, by rw [hb, ← hj]; simp, ?_⟩
              have : min off (blen body) = off := Nat.min_eq_left (by rw [hb, blen_append]; omega)
              rw [blen_append, ← hmin, this]
            · rw [if_neg hin]
              exact Or.inr ⟨rfl, by rw [hb, blen_append]; omega⟩
          cases hap : H.apply it.scopes op with
          | mk k' er =>
            have hnext : next S it = .ok (er.elim (some (.lexeme v it.scopes ⟨n, col⟩)) (fun _ => none), { it with
                lineEvents := es, position := ⟨n, col + (S.segs v).length⟩, byteOffset := off, scopes := k', error := er.elim it.error some }) := by
              cases er <;> simp only [next, build it hc, he, buildLoop, if_pos hgt, hv, Except.ok_bind', hap, hp, Option.elim]
            have := ih (it := { it with lineEvents := es, position := ⟨n, col + (S.segs v).length⟩, byteOffset := off, scopes := k', error := er.elim it.error some })
              (left := if off - it.byteOffset ≤ blen rest then some rest' else none) (col := col + (S.segs v).length) hc rfl hleft rfl
            dsimp only at this ⊢
            generalize lineCalls S.segs n off (col + (S.segs v).length) k' (if off - it.byteOffset ≤ blen rest then some rest' else none) es = r at this ⊢
            obtain ⟨cs, r⟩ := r
            cases r with
            | none => cases er <;> exact Answers.call hnext rfl this
            | some k =>
              obtain ⟨it1, h1, h2⟩ := this
              cases er <;>
                exact ⟨it1, ⟨h1.line, h1.lines, h1.parser, h1.scopes, h1.error⟩, fun os r h => Answers.call hnext rfl (h2 os r h)⟩
      · refine panic (strSlice_not ?_)
        intro x y z h1 h2 h3
        rw [blen_append] at h3
        omega

theorem lines_calls (ls : List Text) : ∀ {it : TokenIter H} {n : Nat}, it.currentLine = none → Holding it.lines n ls →
    Answers S it (seen it.error (linesCalls S.segs n it.scopes it.parser ls).1) (linesCalls S.segs n it.scopes it.parser ls).2 := by
  induction ls with
  | nil =>
    intro it n hc h
    rcases h.next with ⟨_, h⟩ | ⟨_, _, _, _, h, _⟩
    · have : TokenIter.next S it = .ok (none, it) := by
        simp only [next, buildNextToken, hc, Except.ok_bind', parseNextLine, h]
        cases it; cases hc; rfl
      exact .ended this this rfl
    · cases h
  | cons l ls ih =>
    intro it n hc h
    rcases h.next with ⟨h, _⟩ | ⟨body, nl, ls', lines', h1, hn, hnl, h2, h3⟩
    · cases h
    obtain ⟨rfl, rfl⟩ := List.cons.inj h1
    simp only [linesCalls, filter_nl hn hnl]
    cases hp : H.parse it.parser (body ++ nl) with
    | mk p' res =>
      cases res with
      | error e =>
        have hnext : next S it = .ok (none, { it with lines := lines', parser := p', currentLine := none, error := some e }) := by
          simp only [next, buildNextToken, hc, Except.ok_bind', parseNextLine, h2, hp]
        exact Answers.call hnext rfl (ih (it := { it with lines := lines', parser := p', currentLine := none, error := some e }) (n := n + 1) rfl h3)
      | ok es =>
        have hnext : next S it = .ok (some .newline, { it with lines := lines', parser := p', lineEvents := es, currentLine := some (body ++ nl), position := ⟨n, 0⟩, byteOffset := 0 }) := by
          simp only [next, buildNextToken, hc, Except.ok_bind', parseNextLine, h2, hp, Option.isSome_some, if_true]
        have := line_calls (S := S) hn hnl n es
          (it := { it with lines := lines', parser := p', lineEvents := es, currentLine := some (body ++ nl), position := ⟨n, 0⟩, byteOffset := 0 })
          (left := some body) (col := 0) rfl rfl (Or.inl ⟨[], body, rfl, rfl, rfl⟩) rfl
        dsimp only at this ⊢
        generalize lineCalls S.segs n 0 0 it.scopes (some body) es = r at this ⊢
        obtain ⟨cs, r⟩ := r
        cases r with
        | none => exact Answers.call hnext rfl this
        | some k =>
          obtain ⟨it1, k1, k2⟩ := this
          have j := ih (it := it1) (n := n + 1) k1.line (by rw [k1.lines]; exact h3)
          rw [k1.scopes, k1.parser, k1.error] at j
          dsimp only
          rw [List.cons_append, seen, seen_append]
          exact Answers.call hnext rfl (k2 _ _ j)

theorem new_calls (data : Text) :
    match callRun S.segs H data with
    | .error e => new H data = .ok (.error e)
    | .ok (cs, r) => ∃ it, new H data = .ok (.ok it) ∧ Answers S it (seen none cs) r := by
  have hh : Holding (LineIter.new data) 0 (fileLines data) := .more _ (LineIter.at_new data)
  have h1 := lines_calls (S := S) (H := H) (fileLines data) (n := 0)
    (it := { scopes := H.scopes, parser := H.parser, lines := LineIter.new data, currentLine := none, byteOffset := 0, position := ⟨0, 0⟩, lineEvents := [], error := none }) rfl hh
  rcases hh.next with ⟨h, _⟩ | ⟨body, nl, ls', lines', e1, hn, hnl, e2, _⟩
  · rcases line_cases data with hr | ⟨l, r', hl, rfl⟩
    · rw [fileLines_no_nl hr] at h; cases h
    · rw [fileLines_append hl] at h; cases h
  unfold callRun
  rw [e1] at h1 ⊢
  simp only [List.headD_cons]
  cases hp : H.parse H.parser (body ++ nl) with
  | mk p' res =>
    cases res with
    | error e => simp only [new, parseNextLine, e2, Except.ok_bind', hp]
    | ok es =>
      dsimp only
      have hnew : new H data = .ok (.ok { scopes := H.scopes, parser := p', lines := lines', currentLine := some (body ++ nl), byteOffset := 0, position := ⟨0, 0⟩, lineEvents := es, error := none }) := by
        simp only [new, parseNextLine, e2, Except.ok_bind', hp]
      refine ⟨_, hnew, ?_⟩
      have hhd : ∃ cs, (linesCalls S.segs 0 H.scopes H.parser ((body ++ nl) :: ls')).1 = .ok .newline :: cs := by
        simp only [linesCalls, hp]
        split <;> exact ⟨_, rfl⟩
      obtain ⟨cs, hcs⟩ := hhd
      dsimp only at h1
      rw [hcs] at h1 ⊢
      generalize (linesCalls S.segs 0 H.scopes H.parser ((body ++ nl) :: ls')).2 = r at h1 ⊢
      have hnext : next S (H := H) { scopes := H.scopes, parser := H.parser, lines := LineIter.new data, currentLine := none, byteOffset := 0, position := ⟨0, 0⟩, lineEvents := [], error := none } =
          .ok (some .newline, { scopes := H.scopes, parser := p', lines := lines', currentLine := some (body ++ nl), byteOffset := 0, position := ⟨0, 0⟩, lineEvents := es, error := none }) := by
        simp only [next, buildNextToken, Except.ok_bind', parseNextLine, e2, hp, Option.isSome_some, if_true]
      rw [seen, List.tail_cons] at *
      cases h1 with
      | call k _ k' => rw [hnext] at k; cases k; exact k'

theorem Answers.watch {it : TokenIter H} {os r} (h : Answers S it os r) :
    (∀ n, n ≤ os.length → Spec.watch S n it = .ok (os.take n)) ∧
    (r = true → ∀ n, os.length < n → ∃ p, Spec.watch S n it = .error p) ∧
    (r = false → ∀ n, Spec.watch S (os.length + n) it = .ok (os ++ List.replicate n (none, (os.getLast?.map Prod.snd).getD it.error))) := by
  induction h with
  | @ended it it' k1 k2 k3 =>
    refine ⟨fun n hn => ?_, fun h => (by cases h), fun _ n => ?_⟩
    · cases n with
      | zero => rfl
      | succ n => cases hn
    · have key : ∀ n, Spec.watch S n it' = .ok (List.replicate n (none, it'.error)) := by
        intro n
        induction n with
        | zero => rfl
        | succ n ih => rw [Spec.watch, k2]; change (Spec.watch S n it' >>= _) = _; rw [ih]; rfl
      simp only [List.length_nil, Nat.zero_add, List.nil_append, List.getLast?_nil, Option.map_none, Option.getD_none]
      cases n with
      | zero => rfl
      | succ n => rw [Spec.watch, k1]; change (Spec.watch S n it' >>= _) = _; rw [key, ← k3]; rfl
  | @panics it p k =>
    refine ⟨fun n hn => ?_, fun _ n hn => ?_, fun h => (by cases h)⟩
    · cases n with
      | zero => rfl
      | succ n => cases hn
    · cases n with
      | zero => cases hn
      | succ n => exact ⟨p, by rw [Spec.watch, k]; rfl⟩
  | @call it it1 o w os r k kw _ ih =>
    obtain ⟨i1, i2, i3⟩ := ih
    refine ⟨fun n hn => ?_, fun h n hn => ?_, fun h n => ?_⟩
    · cases n with
      | zero => rfl
      | succ n =>
        rw [Spec.watch, k]; change (Spec.watch S n it1 >>= _) = _
        rw [i1 n (by simpa using hn), ← kw]; rfl
    · cases n with
      | zero => cases hn
      | succ n =>
        obtain ⟨p, hp⟩ := i2 h n (by simpa using hn)
        refine ⟨p, ?_⟩
        rw [Spec.watch, k]; change (Spec.watch S n it1 >>= _) = _
        rw [hp]; rfl
    · rw [List.length_cons, Nat.add_right_comm, Spec.watch, k]; change (Spec.watch S (os.length + n) it1 >>= _) = _
      rw [i3 h n, ← kw]
      cases os with
      | nil => rfl
      | cons x xs =>
        rw [List.getLast?_cons_cons]
        have : (x :: xs).getLast? = some ((x :: xs).getLast (by simp)) := List.getLast?_eq_some_getLast (by simp)
        rw [this]; rfl

theorem seen_last (w : Option H.Err) (cs : List (Except H.Err (Token H.Scopes))) : ((seen w cs).getLast?.map Prod.snd).getD w = lastError w cs := by
  induction cs generalizing w with
  | nil => rfl
  | cons c cs ih =>
    cases c with
    | ok t =>
      rw [seen, lastError, ← ih w]
      cases h : seen w cs with
      | nil => rfl
      | cons x xs => rw [List.getLast?_cons_cons]
    | error e =>
      rw [seen, lastError, ← ih (some e)]
      cases h : seen (some e) cs with
      | nil => rfl
      | cons x xs =>
        rw [List.getLast?_cons_cons, List.getLast?_eq_some_getLast (by simp)]; rfl

theorem seen_length (w : Option H.Err) (cs : List (Except H.Err (Token H.Scopes))) : (seen w cs).length = cs.length := by
  induction cs generalizing w with
  | nil => rfl
  | cons c cs ih => cases c <;> simp only [seen, List.length_cons, ih]

/-- Up to the first error. -/
theorem lineCalls_run (segs : Text → List Text) (n : Nat) (es : List (Nat × H.Op)) : ∀ (o col : Nat) (k : H.Scopes) (left : Option Text),
    match lineRun segs n o col k left es with
    | (ts, .ok k') => lineCalls segs n o col k left es = (ts.map .ok, some k')
    | (ts, .error none) => lineCalls segs n o col k left es = (ts.map .ok, none)
    | (ts, .error (some e)) => ∃ cs r, lineCalls segs n o col k left es = (ts.map .ok ++ .error e :: cs, r) := by
  induction es with
  | nil =>
    intro o col k left
    simp only [lineRun, lineCalls]
    split <;> rfl
  | cons e es ih =>
    intro o col k left
    obtain ⟨off, op⟩ := e
    simp only [lineRun, lineCalls]
    by_cases hle : off ≤ o
    · simp only [if_pos hle]
      cases hap : H.apply k op with
      | mk k' er =>
        cases er with
        | some er => exact ⟨_, _, rfl⟩
        | none => exact ih o col k' left
    · simp only [if_neg hle]
      cases left with
      | none => rfl
      | some r =>
        dsimp only
        by_cases hbad : (splitBytes (off - o) r).2 ≠ [] ∧ blen (splitBytes (off - o) r).1 ≠ off - o
        · rw [if_pos hbad, if_pos hbad]; rfl
        · rw [if_neg hbad, if_neg hbad]
          cases hap : H.apply k op with
          | mk k' er =>
            cases er with
            | some er => exact ⟨_, _, rfl⟩
            | none =>
              have := ih off (col + (segs (splitBytes (off - o) r).1).length) k' (if off - o ≤ blen r then some (splitBytes (off - o) r).2 else none)
              dsimp only [Option.elim]
              generalize lineRun segs n off (col + (segs (splitBytes (off - o) r).1).length) k' (if off - o ≤ blen r then some (splitBytes (off - o) r).2 else none) es = x at this ⊢
              obtain ⟨ts, x⟩ := x
              match x, this with
              | .ok k'', h => rw [h]; rfl
              | .error none, h => rw [h]; rfl
              | .error (some e), ⟨cs, r, h⟩ => exact ⟨cs, r, by rw [h]; rfl⟩

theorem linesCalls_run (segs : Text → List Text) (ls : List Text) : ∀ (n : Nat) (k : H.Scopes) (p : H.Parser),
    match linesRun segs n k p ls with
    | (ts, none) => linesCalls segs n k p ls = (ts.map .ok, false)
    | (ts, some none) => linesCalls segs n k p ls = (ts.map .ok, true)
    | (ts, some (some e)) => ∃ cs r, linesCalls segs n k p ls = (ts.map .ok ++ .error e :: cs, r) := by
  induction ls with
  | nil => intro n k p; rfl
  | cons l ls ih =>
    intro n k p
    simp only [linesRun, linesCalls]
    cases hp : H.parse p l with
    | mk p' res =>
      cases res with
      | error e => exact ⟨_, _, rfl⟩
      | ok es =>
        have h1 := lineCalls_run segs n es 0 0 k (some (l.filter (· != '\n')))
        dsimp only
        generalize lineRun segs n 0 0 k (some (l.filter (· != '\n'))) es = x at h1 ⊢
        obtain ⟨ts, x⟩ := x
        match x, h1 with
        | .error none, h => rw [h]; rfl
        | .error (some e), ⟨cs, r, h⟩ =>
          rw [h]
          cases r with
          | none => exact ⟨_, _, rfl⟩
          | some k'' => exact ⟨cs ++ (linesCalls segs (n + 1) k'' p' ls).1, (linesCalls segs (n + 1) k'' p' ls).2, by simp⟩
        | .ok k'', h =>
          rw [h]
          have h2 := ih (n + 1) k'' p'
          dsimp only
          generalize linesRun segs (n + 1) k'' p' ls = y at h2 ⊢
          obtain ⟨ts', y⟩ := y
          match y, h2 with
          | none, h => rw [h]; simp
          | some none, h => rw [h]; simp
          | some (some e), ⟨cs, r, h⟩ => exact ⟨cs, r, by rw [h]; simp⟩

/-- Lexemes are pieces of their line. -/
theorem lineCalls_pieces (segs : Text → List Text) (n : Nat) (es : List (Nat × H.Op)) : ∀ (o col : Nat) (k : H.Scopes) (left : Option Text) (t : Token H.Scopes),
    .ok t ∈ (lineCalls segs n o col k left es).1 → ∃ v k' c a b, t = .lexeme v k' ⟨n, c⟩ ∧ left = some (a ++ v ++ b) := by
  induction es with
  | nil =>
    intro o col k left t h
    simp only [lineCalls] at h
    split at h
    · cases h
    · next hl =>
      cases left with
      | none => exact absurd rfl hl
      | some r => cases List.mem_singleton.mp h; exact ⟨r, k, col, [], [], rfl, by simp⟩
  | cons e es ih =>
    intro o col k left t h
    obtain ⟨off, op⟩ := e
    simp only [lineCalls] at h
    by_cases hle : off ≤ o
    · simp only [if_pos hle] at h
      rcases List.mem_append.mp h with h | h
      · cases he : (H.apply k op).2 with
        | none => rw [he] at h; cases h
        | some e => rw [he] at h; cases List.mem_singleton.mp h
      · exact ih _ _ _ _ _ h
    · simp only [if_neg hle] at h
      cases left with
      | none => cases h
      | some r =>
        dsimp only at h
        have hj := splitBytes_join (off - o) r
        by_cases hbad : (splitBytes (off - o) r).2 ≠ [] ∧ blen (splitBytes (off - o) r).1 ≠ off - o
        · rw [if_pos hbad] at h; cases h
        · rw [if_neg hbad] at h
          rcases List.mem_cons.mp h with h | h
          · cases he : (H.apply k op).2 with
            | none => rw [he] at h; cases h; exact ⟨_, k, col, [], (splitBytes (off - o) r).2, rfl, by rw [List.nil_append, hj]⟩
            | some e => rw [he] at h; cases h
          · obtain ⟨v, k', c, a, b, h1, h2⟩ := ih _ _ _ _ _ h
            split at h2
            · refine ⟨v, k', c, (splitBytes (off - o) r).1 ++ a, b, h1, ?_⟩
              have h3 := Option.some.inj h2
              rw [h3] at hj
              rw [List.append_assoc, List.append_assoc, ← List.append_assoc a, hj]
            · cases h2

theorem linesCalls_pieces (segs : Text → List Text) (ls : List Text) : ∀ (n : Nat) (k : H.Scopes) (p : H.Parser) (v : Text) (k' : H.Scopes) (q : Position),
    .ok (.lexeme v k' q) ∈ (linesCalls segs n k p ls).1 → ∃ i l a b, q.line = n + i ∧ ls[i]? = some l ∧ l.filter (· != '\n') = a ++ v ++ b := by
  induction ls with
  | nil => intro n k p v k' q h; cases h
  | cons l ls ih =>
    intro n k p v k' q h
    simp only [linesCalls] at h
    have rest : ∀ k p, .ok (.lexeme v k' q) ∈ (linesCalls segs (n + 1) k p ls).1 →
        ∃ i l', ∃ a b : Text, q.line = n + i ∧ (l :: ls)[i]? = some l' ∧ l'.filter (· != '\n') = a ++ v ++ b := by
      intro k p h
      obtain ⟨i, l', a, b, h1, h2, h3⟩ := ih _ _ _ _ _ _ h
      exact ⟨i + 1, l', a, b, by omega, h2, h3⟩
    have here : .ok (.lexeme v k' q) ∈ (lineCalls segs n 0 0 k (some (l.filter (· != '\n'))) (match (H.parse p l).2 with | .ok es => es | .error _ => [])).1 →
        ∃ i l', ∃ a b : Text, q.line = n + i ∧ (l :: ls)[i]? = some l' ∧ l'.filter (· != '\n') = a ++ v ++ b := by
      intro h
      obtain ⟨v', k'', c, a, b, h1, h2⟩ := lineCalls_pieces segs n _ _ _ _ _ _ h
      cases h1
      exact ⟨0, l, a, b, rfl, rfl, Option.some.inj h2⟩
    cases hp : H.parse p l with
    | mk p' res =>
      rw [hp] at h here
      cases res with
      | error e =>
        rcases List.mem_cons.mp h with h | h
        · cases h
        · exact rest _ _ h
      | ok es =>
        dsimp only at h here
        generalize lineCalls segs n 0 0 k (some (l.filter (· != '\n'))) es = x at h here
        obtain ⟨ts, x⟩ := x
        cases x with
        | none =>
          rcases List.mem_cons.mp h with h | h
          · cases h
          · exact here h
        | some k'' =>
          rcases List.mem_append.mp h with h | h
          · rcases List.mem_cons.mp h with h | h
            · cases h
            · exact here h
          · exact rest _ _ h

end Scribe.TokenIter
