import Verif.Proofs.Again
import Verif.Props.Cache
import Verif.Props.Stream
/-!
# C116: highlighting only what changed
-/
namespace Scribe.Props
open Spec TokenIter
variable {H : Highlighter}

theorem resume_lineStream (s : H.Scopes × H.Parser) (segs : Text → List Text) (n : Nat) (es : List (Nat × H.Op)) : ∀ (o col : Nat) (k : H.Scopes) (rest : Text),
    lineStream (H := H.resume s) segs n o col k rest es = lineStream (H := H) segs n o col k rest es := by
  induction es with
  | nil => intros; rfl
  | cons e es ih =>
    intro o col k rest
    obtain ⟨off, op⟩ := e
    simp only [lineStream]
    rw [show (H.resume s).apply k op = H.apply k op from rfl]
    cases H.apply k op with
    | mk k' er =>
      cases er with
      | some er => rfl
      | none =>
        dsimp only
        rw [ih, ih]; rfl

theorem resume_streamFrom (s : H.Scopes × H.Parser) (segs : Text → List Text) (ls : List Text) : ∀ (n : Nat) (k : H.Scopes) (p : H.Parser),
    streamFrom (H := H.resume s) segs n k p ls = streamFrom (H := H) segs n k p ls := by
  induction ls with
  | nil => intros; rfl
  | cons l ls ih =>
    intro n k p
    simp only [streamFrom]
    rw [show (H.resume s).parse p l = H.parse p l from rfl]
    cases H.parse p l with
    | mk p' res =>
      cases res with
      | error e => rfl
      | ok es =>
        dsimp only
        rw [resume_lineStream]
        generalize lineStream (H := H) segs n 0 0 k (l.filter (· != '\n')) es = r
        obtain ⟨ts, r⟩ := r
        cases r with
        | error e => rfl
        | ok k' => dsimp only; rw [ih]; rfl

/-- **C116.** If nothing fails in the lines before some line, the tokens of the text are those of these lines, which do not depend on what follows, then a newline, and then the
tokens of the text from that line on as a highlighter gives them that begins in the state of parser and scopes there, further down by the number of lines before it. Errors are the same. -/
theorem C116_resume (S : Segmenter) (H : Highlighter) (hO : OffsetsOk H) (y : Text) (s : H.Scopes × H.Parser) (hs : lastState H (y ++ ['\n']) = some s) :
    ∃ pre : List (Token H.Scopes), render pre = y ∧ (∀ t ∈ pre, Above (y.count '\n' + 1) t) ∧ ∀ c, ∃ it, TokenIter.new H (y ++ '\n' :: c) = .ok (.ok it) ∧
      ((∃ e it', TokenIter.new (H.resume s) c = .ok (.error e) ∧ Collects S it pre it' ∧ it'.error = some e) ∨
      ∃ (jt : TokenIter (H.resume s)) (ts : List (Token H.Scopes)) (jt' : TokenIter (H.resume s)) (it' : TokenIter H), TokenIter.new (H.resume s) c = .ok (.ok jt) ∧ Collects S jt ts jt' ∧
        Collects S it (pre ++ .newline :: ts.map (lower (y.count '\n' + 1))) it' ∧ it'.error = jt'.error) := by
  have hO' : OffsetsOk (H.resume s) := hO
  generalize hls : (fileLines (y ++ ['\n'])).dropLast = ls at *
  have hlen : ls.length = y.count '\n' + 1 := by
    rw [← hls, List.length_dropLast, TokenIter.fileLines_length]; simp
  unfold lastState at hs
  rw [hls] at hs
  obtain ⟨k, p⟩ := s
  obtain ⟨f1, f2⟩ := streamFrom_facts S.segs ls 0 _ _ _ hs
  match ls, hlen with
  | l :: ls, hlen =>
  cases hp : H.parse H.parser l with
  | mk p1 res =>
  cases res with
  | error e => simp only [stateAfter, hp] at hs; cases hs
  | ok es =>
  obtain ⟨pre, hpre⟩ : ∃ pre, (streamFrom S.segs 0 H.scopes H.parser (l :: ls)).1 = .newline :: pre := by
    simp only [streamFrom, hp]
    split
    · exact ⟨_, rfl⟩
    · exact ⟨_, rfl⟩
  rw [hpre] at f1 f2
  refine ⟨pre, ?_, fun t ht => ?_, fun c => ?_⟩
  · have h1 := TokenIter.rejoin_fileLines (y ++ ['\n'])
    have h2 : TokenIter.rejoin (fileLines (y ++ ['\n'])) = TokenIter.rejoin (l :: ls) ++ ['\n'] := by
      have := fileLines_newline y []
      rw [hls] at this
      rw [this]
      generalize l :: ls = m
      clear * -
      induction m with
      | nil => rfl
      | cons a m ih => rw [List.cons_append, TokenIter.rejoin, TokenIter.rejoin, ih]; simp
    rw [h2, ← f1] at h1
    simp only [render, List.cons_append, List.cons.injEq, true_and] at h1
    exact List.append_cancel_right h1
  · have := f2 t (List.mem_cons_of_mem _ ht)
    rwa [Nat.zero_add, hlen] at this
  · have hfl := fileLines_newline y c
    rw [hls] at hfl
    have hst := new_stream (S := S) hO (y ++ '\n' :: c)
    unfold stream at hst
    rw [hfl, streamFrom_append S.segs (fileLines c) (l :: ls) 0 _ _ k p hs, hpre, hlen, streamFrom_lower] at hst
    simp only [List.cons_append, List.headD_cons, hp, List.tail_cons] at hst
    obtain ⟨it, it', n1, n2, n3⟩ := hst
    refine ⟨it, n1, ?_⟩
    have hr := new_stream (S := S) hO' c
    unfold stream at hr
    have key := resume_streamFrom (H := H) (k, p) S.segs (fileLines c) 0 k p
    obtain ⟨c1, cs, hc⟩ := List.exists_cons_of_ne_nil (fileLines_ne_nil c)
    rw [hc] at hr n2 n3 key
    simp only [List.headD_cons] at hr
    rw [show (H.resume (k, p)).parse (H.resume (k, p)).parser c1 = H.parse p c1 from rfl] at hr
    cases hp1 : H.parse p c1 with
    | mk p2 res =>
      rw [hp1] at hr
      cases res with
      | error e =>
        refine Or.inl ⟨e, it', hr, ?_, ?_⟩
        · simp only [streamFrom, hp1] at n2
          simpa using n2
        · simp only [streamFrom, hp1] at n3
          exact n3
      | ok es1 =>
        dsimp only at hr
        obtain ⟨jt, jt', j1, j2, j3⟩ := hr
        refine Or.inr ⟨jt, _, jt', it', j1, j2, ?_, n3.trans ?_⟩
        · have : ∃ ts, (streamFrom S.segs 0 k p (c1 :: cs)).1 = .newline :: ts := by
            simp only [streamFrom, hp1]
            split
            · exact ⟨_, rfl⟩
            · exact ⟨_, rfl⟩
          obtain ⟨ts, e⟩ := this
          rw [e] at n2
          rw [show (streamFrom S.segs 0 (H.resume (k, p)).scopes (H.resume (k, p)).parser (c1 :: cs)).1 = .newline :: ts from (congrArg Prod.fst key).trans e]
          exact n2
        · rw [j3]; exact (congrArg Prod.snd key).symm

/-- **C116.** Two texts that end alike, if parser and scopes are in the same state where the common end begins: there the tokens are the same but for their line numbers, which differ
by the difference of the lines before, and so are the errors. What the tokens before are, and how many, is of no concern. -/
theorem C116_patch (S : Segmenter) (H : Highlighter) (hO : OffsetsOk H) (y y' : Text) (s : H.Scopes × H.Parser) (hs : lastState H (y ++ ['\n']) = some s)
    (hs' : lastState H (y' ++ ['\n']) = some s) :
    ∃ pre pre' : List (Token H.Scopes), render pre = y ∧ render pre' = y' ∧ ∀ c, ∃ (post : List (Token H.Scopes)) (it it' jt jt' : TokenIter H),
      TokenIter.new H (y ++ '\n' :: c) = .ok (.ok it) ∧ Collects S it (pre ++ post.map (lower (y.count '\n' + 1))) it' ∧
      TokenIter.new H (y' ++ '\n' :: c) = .ok (.ok jt) ∧ Collects S jt (pre' ++ post.map (lower (y'.count '\n' + 1))) jt' ∧ it'.error = jt'.error := by
  obtain ⟨pre, h1, -, h2⟩ := C116_resume S H hO y s hs
  obtain ⟨pre', h1', -, h2'⟩ := C116_resume S H hO y' s hs'
  refine ⟨pre, pre', h1, h1', fun c => ?_⟩
  obtain ⟨it, k1, k2⟩ := h2 c
  obtain ⟨jt, k1', k2'⟩ := h2' c
  rcases k2 with ⟨e, it', a1, a2, a3⟩ | ⟨it1, ts, it2, it', a1, a2, a3, a4⟩
  · rcases k2' with ⟨e', jt', b1, b2, b3⟩ | ⟨jt1, ts', jt2, jt', b1, b2, b3, b4⟩
    · rw [a1] at b1
      cases b1
      exact ⟨[], it, it', jt, jt', k1, by simpa using a2, k1', by simpa using b2, a3.trans b3.symm⟩
    · rw [a1] at b1; cases b1
  · rcases k2' with ⟨e', jt', b1, b2, b3⟩ | ⟨jt1, ts', jt2, jt', b1, b2, b3, b4⟩
    · rw [a1] at b1; cases b1
    · rw [a1] at b1
      cases b1
      obtain ⟨rfl, rfl⟩ := a2.functional b2
      exact ⟨.newline :: ts, it, it', jt, jt', k1, a3, k1', b3, a4.trans b4.symm⟩

/-- **C116.** The states can be computed from each other: that after more lines is that after these lines for the highlighter that begins where it was. -/
theorem C116_states (H : Highlighter) (y z : Text) :
    lastState H (y ++ '\n' :: z) = (lastState H (y ++ ['\n'])).bind fun s => lastState (H.resume s) z := by
  unfold lastState
  rw [fileLines_newline, List.dropLast_append_of_ne_nil (fileLines_ne_nil z), stateAfter_append]
  congr 1
  funext s
  generalize (fileLines z).dropLast = ms
  show stateAfter H s.1 s.2 ms = stateAfter (H.resume s) s.1 s.2 ms
  have : ∀ (k : H.Scopes) (p : H.Parser), stateAfter H k p ms = stateAfter (H.resume s) k p ms := by
    induction ms with
    | nil => intros; rfl
    | cons l ms ih =>
      intro k p
      simp only [stateAfter]
      rw [show (H.resume s).parse p l = H.parse p l from rfl]
      cases H.parse p l with
      | mk p1 res =>
        cases res with
        | error e => rfl
        | ok es =>
          dsimp only
          have ha : ∀ (es : List (Nat × H.Op)) (k : H.Scopes), firstError.applyAll (H.resume s) k es = firstError.applyAll H k es := by
            intro es
            induction es with
            | nil => intros; rfl
            | cons e es ih2 =>
              intro k
              obtain ⟨o, op⟩ := e
              simp only [firstError.applyAll]
              rw [show (H.resume s).apply k op = H.apply k op from rfl]
              cases H.apply k op with
              | mk k' er =>
                cases er with
                | some er => rfl
                | none => exact ih2 k'
          rw [ha]
          cases firstError.applyAll H k es with
          | error e => rfl
          | ok k1 => exact ih _ _
  exact this _ _

theorem beforeLine_newline {segs : Text → List Text} {t x : Text} {n : Nat} (hj : (segs t).flatten = t) (h : beforeLine segs t n = some x) (hn : n ≠ 0) :
    ∃ y z, x = y ++ ['\n'] ∧ t = y ++ '\n' :: z := by
  obtain ⟨z, a, b, h1, rfl, rfl, h2⟩ := beforeLine_eq_some.mp h
  rcases List.eq_nil_or_concat a with rfl | ⟨a', c, rfl⟩
  · rw [endPos_nil] at h2
    exact absurd (congrArg Position.line h2).symm hn
  · rw [List.concat_eq_append] at *
    rw [endPos_concat] at h2
    unfold Spec.step at h2
    by_cases hc : c = ['\n']
    · subst hc
      exact ⟨a'.flatten, b.flatten, by simp, by rw [← hj, h1]; simp⟩
    · rw [if_neg hc] at h2
      have := congrArg Position.offset h2
      simp at this

/-- **C116.** The application of C91 keeps the states of parser and scopes at the starts of some lines, and drops those of the lines after each position that the change callback
reports. After any session of clean calls each state it has leads to the tokens of the text from that line on. -/
theorem C116_cached (S : Segmenter) (A : Alloc) (H : Highlighter) (hO : OffsetsOk H) (as : List Turn) (b : Buf) (d : Doc) (c : Cache (Option (H.Scopes × H.Parser)))
    (h : Reached S A b d) (hcb : b.callback = true) (hv : ∀ v, .setCallback v ∉ Turn.calls as) (hc : CleanCmds S.segs d (Turn.calls as)) (t : Text)
    (ht : b.data.toStr = .ok t) (hr : c.Right S.segs (lastState H) t) :
    ∃ b' c', turns S A (lastState H) (b, c) as = .ok (b', c') ∧ ∀ n s, (n, some s) ∈ c' → n ≠ 0 →
      ∃ y z pre it, b'.data.toStr = .ok (y ++ '\n' :: z) ∧ beforeLine S.segs (y ++ '\n' :: z) n = some (y ++ ['\n']) ∧ render pre = y ∧
        TokenIter.new H (y ++ '\n' :: z) = .ok (.ok it) ∧
        ((∃ e it', TokenIter.new (H.resume s) z = .ok (.error e) ∧ Collects S it pre it' ∧ it'.error = some e) ∨
        ∃ (jt : TokenIter (H.resume s)) (ts : List (Token H.Scopes)) (jt' : TokenIter (H.resume s)) (it' : TokenIter H), TokenIter.new (H.resume s) z = .ok (.ok jt) ∧
          Collects S jt ts jt' ∧ Collects S it (pre ++ .newline :: ts.map (lower (y.count '\n' + 1))) it' ∧ it'.error = jt'.error) := by
  obtain ⟨b', c', t', h1, -, h3, h4⟩ := C91_cache A (lastState H) as b d c h hcb hv hc t ht hr
  refine ⟨b', c', h1, fun n s hm hn => ?_⟩
  obtain ⟨x, hx, he⟩ := h4 _ hm
  obtain ⟨y, z, rfl, rfl⟩ := beforeLine_newline (S.join t') hx hn
  obtain ⟨pre, k1, -, k3⟩ := C116_resume S H hO y s he.symm
  obtain ⟨it, m1, m2⟩ := k3 z
  exact ⟨y, z, pre, it, h3, hx, k1, m1, m2⟩

/-! ## Cases -/

/-- Braces around comments, which may go over lines; inside of them the scope is `true`. -/
def bracesH : Highlighter where
  Parser := Nat
  Scopes := Bool
  Op := Bool
  Err := Unit
  parser := 0
  scopes := false
  parse := fun n line => if line = ['!'] then (n, .error ()) else
    (n, .ok ((List.range line.length).filterMap fun i =>
      if line[i]? = some '{' then some (blen (line.take i), true) else if line[i]? = some '}' then some (blen (line.take (i + 1)), false) else none))
  apply := fun _ op => (op, none)

theorem bracesH_ok : OffsetsOk bracesH := by
  intro p l p' es h e he
  simp only [bracesH] at h
  split at h
  · cases h
  · obtain ⟨-, h⟩ := Prod.mk.inj h
    cases h
    obtain ⟨i, -, hi⟩ := List.mem_filterMap.mp he
    split at hi
    · cases hi; exact ⟨l.take i, l.drop i, (List.take_append_drop i l).symm, rfl⟩
    · split at hi
      · cases hi; exact ⟨l.take (i + 1), l.drop (i + 1), (List.take_append_drop _ l).symm, rfl⟩
      · cases hi

/-- All tokens of a text, with their scopes and positions. -/
def bracesSeen (s : Bool × Nat) (t : String) : Option (List (Token Bool)) :=
  match TokenIter.new (bracesH.resume s) (Demo.s t) with
  | .ok (.ok it) => match TokenIter.collect Demo.seg 50 it with
    | .ok (some (ts, _)) => some ts
    | _ => none
  | _ => none

/-- The state of parser and scopes at the last line. -/
def bracesState (t : String) : Option (Bool × Nat) := lastState bracesH (Demo.s t)

/-- The state after a comment is that before it, inside of it is another. -/
example : bracesState "a{é\n" = some (true, 0) ∧ bracesState "a{é\nb}\n" = some (false, 0) ∧ bracesState "x\n" = some (false, 0) := by decide +kernel

/-- Resuming at line 1 within a comment. -/
example : bracesSeen (false, 0) "a{é\nb}c" =
      some [.lexeme (Demo.s "a") false ⟨0, 0⟩, .lexeme (Demo.s "{é") true ⟨0, 1⟩, .newline, .lexeme (Demo.s "b}") true ⟨1, 0⟩, .lexeme (Demo.s "c") false ⟨1, 2⟩] ∧
    bracesSeen (true, 0) "b}c" = some [.lexeme (Demo.s "b}") true ⟨0, 0⟩, .lexeme (Demo.s "c") false ⟨0, 2⟩] := by decide +kernel

/-- From another state the tokens are others: the hypothesis of `C116_patch` is needed. -/
example : bracesSeen (false, 0) "x\nb{c" ≠ bracesSeen (true, 0) "x\nb{c" ∧ bracesSeen (false, 0) "y{\nb" ≠ bracesSeen (false, 0) "y\nb" := by decide +kernel

/-- A line that cannot be parsed, where one resumes. -/
example : bracesSeen (false, 0) "!" = none ∧ bracesSeen (false, 0) "a\n!" = some [.lexeme (Demo.s "a") false ⟨0, 0⟩] := by decide +kernel

end Scribe.Props
