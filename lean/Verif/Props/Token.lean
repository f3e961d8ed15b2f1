import Verif.Proofs.Token
import Verif.Proofs.Text
import Verif.Demo
/-!
# Properties C35–C37, C48: line iterator and tokens
-/
namespace Scribe.Props
open Spec TokenIter

/-- **C35.** For every string the iterator's first results are the lines `ls`, numbered from 0: their concatenation is the string, all but
the last end with their only newline, the last has none, there are one more than newlines. All later results are `None`. No call panics. -/
theorem C35_line_iterator (t : Text) :
    ∃ ls : List Text, ls.length = t.count '\n' + 1 ∧ ls.flatten = t ∧
      (∀ i l, ls[i]? = some l → if i + 1 < ls.length then ∃ b, l = b ++ ['\n'] ∧ '\n' ∉ b else '\n' ∉ l) ∧
      ∀ n, LineIter.run n (LineIter.new t) = .ok ((List.range n).map fun i => ls[i]?.map fun l => (i, l)) := by
  obtain ⟨ls, h1, h2, h3, h4⟩ := LineIter.run_spec t _ 0 (LineIter.at_new t)
  exact ⟨ls, h1, h2, h3, fun n => by simpa using h4 n⟩

example : LineIter.run 4 (LineIter.new (Demo.s "é\r\nb\n")) =
    .ok [some (0, Demo.s "é\r\n"), some (1, Demo.s "b\n"), some (2, []), none] := by decide +kernel

/-- **C36.** For every highlighter with sane event offsets and every string: either creating the iterator reports an error, or iterating ends
after finitely many tokens without panicking, and then: if no error is recorded the tokens make up exactly the string, and if one is recorded
they make up a prefix of it. No lexeme contains a newline. Errors come only from the highlighter. -/
theorem C36_tokens_are_lossless (S : Segmenter) (H : Highlighter) (data : Text) (hO : OffsetsOk H) :
    (∃ e, TokenIter.new H data = .ok (.error e) ∧ CanFail H) ∨
    ∃ it ts it', TokenIter.new H data = .ok (.ok it) ∧ Collects S it ts it' ∧
      (∀ v k p, .lexeme v k p ∈ ts → '\n' ∉ v) ∧
      ((it'.error = none ∧ render ts = data) ∨ (it'.error.isSome ∧ CanFail H ∧ render ts <+: data)) := by
  rcases new_spec (S := S) hO data with h | ⟨it, ts, it', h1, h2, h3, h4⟩
  · exact Or.inl h
  · refine Or.inr ⟨it, ts, it', h1, h2, ?_, h4⟩
    intro v k p hm
    obtain ⟨x, y, hxy⟩ := List.append_of_mem hm
    exact (h3 x v k p y hxy).2.2

/-- C36: with a highlighter that never fails, all the text comes out as tokens. -/
theorem C36_no_failure (S : Segmenter) (H : Highlighter) (data : Text) (hO : OffsetsOk H)
    (hp : ∀ p l, ∃ es, (H.parse p l).2 = .ok es) (ha : ∀ k op, (H.apply k op).2 = none) :
    ∃ it ts it', TokenIter.new H data = .ok (.ok it) ∧ Collects S it ts it' ∧ it'.error = none ∧ render ts = data := by
  have hf : ¬ CanFail H := by
    rintro (⟨k, op, h⟩ | ⟨p, l, e, h⟩)
    · rw [ha] at h; simp at h
    · obtain ⟨es, he⟩ := hp p l
      rw [he] at h; cases h
  rcases C36_tokens_are_lossless S H data hO with ⟨_, _, h⟩ | ⟨it, ts, it', h1, h2, _, h4⟩
  · exact absurd h hf
  · rcases h4 with h4 | ⟨_, h, _⟩
    · exact ⟨it, ts, it', h1, h2, h4⟩
    · exact absurd h hf

/-- **C37.** The position of each lexeme: its line is the number of newline tokens before it, its offset the number of clusters of the lexemes
before it on its line. -/
theorem C37_token_positions (S : Segmenter) (H : Highlighter) (data : Text) (hO : OffsetsOk H) (it it' : TokenIter H) (ts : List (Token H.Scopes))
    (hn : TokenIter.new H data = .ok (.ok it)) (hc : Collects S it ts it') (x y : List (Token H.Scopes)) (v : Text) (k : H.Scopes) (p : Position)
    (h : ts = x ++ .lexeme v k p :: y) : p = posAfter S.segs x := by
  rcases new_spec (S := S) hO data with ⟨e, h1, _⟩ | ⟨it1, ts1, it1', h1, h2, h3, _⟩
  · rw [hn] at h1; cases h1
  · rw [hn] at h1; cases h1
    obtain ⟨rfl, _⟩ := hc.functional h2
    exact (h3 x v k p y h).1

/-- Two prefixes of the same clusters. -/
theorem prefix_of_flatten {a b a' b' : List Text} (h : a ++ b = a' ++ b') (hne : ∀ c ∈ a', c ≠ []) {z : Text} (hz : a.flatten = a'.flatten ++ z) :
    ∃ c, a = a' ++ c ∧ c.flatten = z := by
  rcases List.append_eq_append_iff.mp h with ⟨c, h1, h2⟩ | ⟨c, h1, h2⟩
  · have hl := congrArg List.length hz
    rw [h1, List.flatten_append] at hl
    simp only [List.length_append] at hl
    have hcf : c.flatten = [] := List.length_eq_zero_iff.mp (by omega)
    have hc : c = [] := by
      cases c with
      | nil => rfl
      | cons d c =>
        simp only [List.flatten_cons, List.append_eq_nil_iff] at hcf
        exact absurd hcf.1 (hne d (by rw [h1]; simp))
    subst hc
    rw [List.append_nil] at h1
    refine ⟨[], by simp [h1], ?_⟩
    rw [h1] at hz
    simpa using hz
  · refine ⟨c, h1, ?_⟩
    rw [h1, List.flatten_append] at hz
    exact List.append_cancel_left hz

/-- The tokens are a prefix of the text, and lexemes have no newlines. -/
theorem tokens_prefix (S : Segmenter) (H : Highlighter) (data : Text) (hO : OffsetsOk H) (it it' : TokenIter H) (ts : List (Token H.Scopes))
    (hn : TokenIter.new H data = .ok (.ok it)) (hc : Collects S it ts it') :
    render ts <+: data ∧ ∀ v k p, .lexeme v k p ∈ ts → '\n' ∉ v := by
  rcases C36_tokens_are_lossless S H data hO with ⟨e, h1, _⟩ | ⟨it1, ts1, it1', h1, h2, h3, h4⟩
  · rw [hn] at h1; cases h1
  · rw [hn] at h1; cases h1
    obtain ⟨rfl, _⟩ := hc.functional h2
    refine ⟨?_, h3⟩
    rcases h4 with ⟨_, h4⟩ | ⟨_, _, h4⟩
    · exact ⟨[], by rw [h4]; simp⟩
    · exact h4

/-- The position after some tokens, if they end on a boundary. -/
theorem posAfter_boundary (S : Segmenter) (H : Highlighter) (data : Text) (hO : OffsetsOk H) (it it' : TokenIter H) (ts : List (Token H.Scopes))
    (hn : TokenIter.new H data = .ok (.ok it)) (hc : Collects S it ts it') (hcr : '\r' ∉ data)
    (hb : ∀ x y v k p, ts = x ++ .lexeme v k p :: y → ∃ a b, S.segs data = a ++ b ∧ a.flatten = render x)
    : ∀ x y, ts = x ++ y → ∀ a b, S.segs data = a ++ b → a.flatten = render x → posAfter S.segs x = endPos a := by
  have hpre := tokens_prefix S H data hO it it' ts hn hc
  intro x
  induction x using List.reverseRecOn with
  | nil =>
    intro y _ a b hs ha
    obtain ⟨c, hc, hcf⟩ := prefix_of_flatten (a := a) (b := b) (a' := []) (b' := S.segs data) (by rw [← hs]; rfl) (by simp) (z := []) (by rw [ha]; rfl)
    have : c = [] := by
      cases c with
      | nil => rfl
      | cons d c =>
        simp only [List.flatten_cons, List.append_eq_nil_iff] at hcf
        exact absurd hcf.1 (S.nonempty data d (by rw [hs, hc]; simp))
    subst this
    rw [hc]; rfl
  | append_singleton x t ih =>
    intro y hts a b hs ha
    have hts' : ts = x ++ t :: y := by rw [hts]; simp
    have hne : ∀ a' b', S.segs data = a' ++ b' → ∀ c ∈ a', c ≠ [] := fun a' b' h c hc => S.nonempty data c (by rw [h]; simp [hc])
    cases t with
    | newline =>
      rw [posAfter_newline]
      -- the newline is a cluster of its own
      obtain ⟨z, hz⟩ := hpre.1
      have e1 : data = render x ++ '\n' :: (render y ++ z) := by
        rw [← hz, hts, render_append, render_append]; simp [render]
      have e2 : S.segs data = S.segs (render x) ++ ['\n'] :: S.segs (render y ++ z) := by
        have gen : ∀ (u r : Text), '\r' ∉ u → S.segs (u ++ '\n' :: r) = S.segs u ++ ['\n'] :: S.segs r := by
          intro u
          induction u using lines_induction with
          | h1 l hl => intro r hu; exact Segmenter.segs_line S hl hu
          | h2 l r' hl ih2 =>
            intro r hu
            have hl' : '\r' ∉ l := fun hm => hu (by simp [hm])
            have hr' : '\r' ∉ r' := fun hm => hu (by simp [hm])
            rw [List.append_assoc, List.cons_append, Segmenter.segs_line S hl hl', ih2 r hr', Segmenter.segs_line S hl hl']
            simp
        rw [e1]
        exact gen _ _ (fun hm => hcr (by rw [e1]; simp [hm]))
      have h1 := ih (.newline :: y) hts' _ _ e2 (S.join _)
      have e3 : S.segs data = (S.segs (render x) ++ [['\n']]) ++ S.segs (render y ++ z) := by rw [e2]; simp
      obtain ⟨c, hc, hcf⟩ := prefix_of_flatten (a := a) (b := b) (a' := S.segs (render x) ++ [['\n']]) (by rw [← hs]; exact e3)
        (hne _ _ e3) (z := []) (by rw [ha, render_append]; simp [S.join, render])
      have : c = [] := by
        cases c with
        | nil => rfl
        | cons d c =>
          simp only [List.flatten_cons, List.append_eq_nil_iff] at hcf
          exact absurd hcf.1 (S.nonempty data d (by rw [hs, hc]; simp))
      subst this
      rw [List.append_nil] at hc
      rw [hc, endPos_concat, h1, step, if_pos rfl]
    | lexeme v k p =>
      rw [posAfter_lexeme]
      obtain ⟨a', b', hs', ha'⟩ := hb x y v k p hts'
      have h1 := ih (.lexeme v k p :: y) hts' a' b' hs' ha'
      obtain ⟨c, hc, hcf⟩ := prefix_of_flatten (a := a) (b := b) (a' := a') (by rw [← hs]; exact hs') (hne _ _ hs')
        (z := v) (by rw [ha, ha', render_append]; simp [render])
      have hv : '\n' ∉ v := hpre.2 v k p (by rw [hts']; simp)
      have hseg : S.segs v = c := by
        have h2 := (S.cut data a b hs).1
        rw [hc] at h2
        have := (S.cut _ a' c h2).2
        rwa [hcf] at this
      have hnl : ['\n'] ∉ c := by rw [← hseg]; exact Segmenter.nl_notMem S hv
      rw [hc, endPos_append_eq, endPos_line_zero hnl, if_pos rfl, h1, hseg]
/-- C37: in text without carriage returns whose lexemes begin on cluster boundaries, the position of a lexeme names the place in the text where
the lexeme stands. -/
theorem C37_positions_in_buffer (S : Segmenter) (H : Highlighter) (data : Text) (hO : OffsetsOk H) (it it' : TokenIter H) (ts : List (Token H.Scopes))
    (hn : TokenIter.new H data = .ok (.ok it)) (hc : Collects S it ts it') (hcr : '\r' ∉ data)
    (hb : ∀ x y v k p, ts = x ++ .lexeme v k p :: y → ∃ a b, S.segs data = a ++ b ∧ a.flatten = render x)
    (x y : List (Token H.Scopes)) (v : Text) (k : H.Scopes) (p : Position) (h : ts = x ++ .lexeme v k p :: y) :
    ∃ post, PlaceIn (S.segs data) p (render x) (v ++ post) := by
  have hpre := tokens_prefix S H data hO it it' ts hn hc
  have key := posAfter_boundary S H data hO it it' ts hn hc hcr hb
  obtain ⟨a, b, hs, ha⟩ := hb x y v k p h
  obtain ⟨z, hz⟩ := hpre.1
  refine ⟨render y ++ z, a, b, hs, ha.symm, ?_, ?_⟩
  · have e1 : data = a.flatten ++ b.flatten := by
      have := S.join data
      rw [hs, List.flatten_append] at this
      exact this.symm
    have e2 : data = render x ++ (v ++ (render y ++ z)) := by rw [← hz, h, render_append]; simp [render]
    rw [ha] at e1
    exact List.append_cancel_left (e2.symm.trans e1)
  · rw [C37_token_positions S H data hO it it' ts hn hc x y v k p h]
    exact (key x _ h a b hs ha).symm

/-- **C48.** The scope of each lexeme: the result of applying, in order, all events of the lines before it and the events of its line up to the
first one beyond the lexeme's first byte. -/
theorem C48_token_scopes (S : Segmenter) (H : Highlighter) (data : Text) (hO : OffsetsOk H) (it it' : TokenIter H) (ts : List (Token H.Scopes))
    (hn : TokenIter.new H data = .ok (.ok it)) (hc : Collects S it ts it') (x y : List (Token H.Scopes)) (v : Text) (k : H.Scopes) (p : Position)
    (h : ts = x ++ .lexeme v k p :: y) :
    k = scopeAfter H (((events H.parser (fileLines data)).take p.line).flatten ++
      ((events H.parser (fileLines data))[p.line]?.getD []).takeWhile (fun e => e.1 ≤ bytesAfter x)) := by
  have hp := C37_token_positions S H data hO it it' ts hn hc x y v k p h
  rcases new_spec (S := S) hO data with ⟨e, h1, _⟩ | ⟨it1, ts1, it1', h1, h2, h3, _⟩
  · rw [hn] at h1; cases h1
  · rw [hn] at h1; cases h1
    obtain ⟨rfl, _⟩ := hc.functional h2
    have := (h3 x v k p y h).2.1
    rw [List.nil_append, ← hp] at this
    exact this

theorem takeWhile_sorted {α : Type} {es : List (Nat × α)} (h : es.Pairwise fun a b => a.1 ≤ b.1) (n : Nat) :
    es.takeWhile (fun e => e.1 ≤ n) = es.filter fun e => e.1 ≤ n := by
  induction es with
  | nil => rfl
  | cons e es ih =>
    rw [List.pairwise_cons] at h
    by_cases he : e.1 ≤ n
    · rw [List.takeWhile_cons_of_pos (by simpa using he), List.filter_cons_of_pos (by simpa using he), ih h.2]
    · rw [List.takeWhile_cons_of_neg (by simpa using he), List.filter_cons_of_neg (by simpa using he)]
      symm
      rw [List.filter_eq_nil_iff]
      intro a ha
      have := h.1 a ha
      simp; omega

/-- C48: if the parser's events are sorted, these are the events of its line at or before the lexeme. -/
theorem C48_token_scopes_sorted (S : Segmenter) (H : Highlighter) (data : Text) (hO : OffsetsOk H)
    (hsort : ∀ p l p' es, H.parse p l = (p', .ok es) → es.Pairwise fun a b => a.1 ≤ b.1)
    (it it' : TokenIter H) (ts : List (Token H.Scopes))
    (hn : TokenIter.new H data = .ok (.ok it)) (hc : Collects S it ts it') (x y : List (Token H.Scopes)) (v : Text) (k : H.Scopes) (p : Position)
    (h : ts = x ++ .lexeme v k p :: y) :
    k = scopeAfter H (((events H.parser (fileLines data)).take p.line).flatten ++
      ((events H.parser (fileLines data))[p.line]?.getD []).filter (fun e => e.1 ≤ bytesAfter x)) := by
  have := C48_token_scopes S H data hO it it' ts hn hc x y v k p h
  rw [this]
  congr 2
  apply takeWhile_sorted
  have gen : ∀ (ls : List Text) (q : H.Parser), ∀ es ∈ events q ls, es.Pairwise fun a b => a.1 ≤ b.1 := by
    intro ls
    induction ls with
    | nil => intro q es he; simp [events] at he
    | cons l ls ih =>
      intro q es he
      unfold events at he
      split at he
      · rename_i q' es' hp
        rcases List.mem_cons.mp he with rfl | he
        · exact hsort _ _ _ _ hp
        · exact ih q' es he
      · simp at he
  cases he : (events H.parser (fileLines data))[p.line]? with
  | none => exact List.Pairwise.nil
  | some es => exact gen _ _ es (List.mem_of_getElem? he)

/-! ### A highlighter for examples -/

/-- Marks the first word of every line: pushes 1 at its start, pops at its end; fails on lines starting with `!`. -/
def demoH : Highlighter where
  Parser := Nat
  Scopes := List Nat
  Op := Option Nat
  Err := Nat
  parser := 0
  scopes := []
  parse n l := if l.head? = some '!' then (n, .error n) else (n + 1, .ok [(0, some n), (blen (l.takeWhile (· != ' ')), none)])
  apply k op := match op with
    | some n => (n :: k, none)
    | none => (k.tail, none)

theorem demoH_ok : OffsetsOk demoH := by
  intro p l p' es h e he
  simp only [demoH] at h
  split at h
  · cases h
  · cases h
    rcases List.mem_cons.mp he with rfl | he
    · exact ⟨[], l, rfl, rfl⟩
    · obtain rfl := List.mem_singleton.mp he
      exact ⟨_, _, (List.takeWhile_append_dropWhile (p := (· != ' ')) (l := l)).symm, rfl⟩

def demoTokens (t : Text) : R (Option (List (Token (List Nat)) × Option Nat)) :=
  match TokenIter.new demoH t with
  | .ok (.ok it) => TokenIter.collect (H := demoH) Demo.seg 20 it
  | .ok (.error e) => .ok (some ([], some e))
  | .error p => .error p

example : demoTokens (Demo.s "éx y\n\nb") =
    .ok (some ([.lexeme (Demo.s "éx") [0] ⟨0, 0⟩, .lexeme (Demo.s " y") [] ⟨0, 2⟩, .newline, .lexeme [] [1] ⟨1, 0⟩, .newline,
      .lexeme (Demo.s "b") [2] ⟨2, 0⟩], none)) := by decide +kernel
example : demoTokens (Demo.s "a b\n!c\nd") =
    .ok (some ([.lexeme (Demo.s "a") [0] ⟨0, 0⟩, .lexeme (Demo.s " b") [] ⟨0, 1⟩], some 1)) := by decide +kernel

end Scribe.Props
