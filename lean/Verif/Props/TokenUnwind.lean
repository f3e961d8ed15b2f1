import Verif.Proofs.TokenUnwind
import Verif.Props.Resume
/-!
# Property C107: token iterators whose panics are caught
-/
namespace Scribe.Props
open Spec TokenUnwind
open TokenIter (splitBytes_all splitBytes_join splitBytes_le splitBytes_append prefix_of_blen)

/-- **C107.** For every highlighter, also one that panics (`boom`), and every string: there is an iterator unless the first line cannot be parsed or the parser panics
there. Any number of calls of `next`, catching panics, end one by one as `goRun` says, and leave the last error so far in `error`; after these
it returns `None` for ever, does not panic any more, and `error` stays. -/
theorem C107_calls (S : Segmenter) (H : Highlighter) (boom : H.Err → Bool) (data : Text) :
    match goRun S.segs H boom data with
    | .error e => TokenUnwind.new boom data = (if boom e then .unwound else .done (.error e))
    | .ok cs => ∃ it : TokenIter H, TokenUnwind.new boom data = .done (.ok it) ∧
      ∀ n, behold S boom n it = (noted none cs ++ List.replicate n (Out.done none, errorAfter none cs)).take n := by
  have h := new_goes (S := S) (H := H) (boom := boom) data
  cases hc : goRun S.segs H boom data with
  | error e => rw [hc] at h; exact h
  | ok cs =>
    rw [hc] at h
    obtain ⟨it, h1, he, h2⟩ := h
    refine ⟨it, h1, fun n => ?_⟩
    rw [h2.behold n, he, noted_last]

theorem parse_same {H : Highlighter} (boom : H.Err → Bool) (it : TokenIter H) :
    (∀ r, (TokenUnwind.parseNextLine boom it).1 = .done r → TokenIter.parseNextLine it = .ok (r, (TokenUnwind.parseNextLine boom it).2)) ∧
    ((∃ p, TokenIter.parseNextLine it = .error p) → (TokenUnwind.parseNextLine boom it).1 = .unwound) ∧
    ((∀ e, boom e = false) → (TokenUnwind.parseNextLine boom it).1 = .unwound → ∃ p, TokenIter.parseNextLine it = .error p) := by
  simp only [TokenUnwind.parseNextLine, TokenIter.parseNextLine]
  cases it.lines.next with
  | error p => exact ⟨fun r h => (by cases h), fun _ => rfl, fun _ _ => ⟨p, rfl⟩⟩
  | ok x =>
    obtain ⟨o, lines⟩ := x
    simp only [Except.ok_bind']
    cases o with
    | none => exact ⟨fun r h => (by cases h; rfl), fun ⟨p, h⟩ => (by cases h), fun _ h => (by cases h)⟩
    | some nl =>
      dsimp only
      cases H.parse it.parser nl.2 with
      | mk p' res =>
        cases res with
        | ok es => exact ⟨fun r h => (by cases h; rfl), fun ⟨p, h⟩ => (by cases h), fun _ h => (by cases h)⟩
        | error e =>
          dsimp only [failed]
          cases hb : boom e with
          | true => exact ⟨fun r h => (by cases h), fun ⟨p, h⟩ => (by cases h), fun h _ => by rw [h] at hb; cases hb⟩
          | false => exact ⟨fun r h => (by cases h; rfl), fun ⟨p, h⟩ => (by cases h), fun _ h => (by cases h)⟩

theorem build_same (S : Segmenter) {H : Highlighter} (boom : H.Err → Bool) (line : Text) (eol : Nat) (es : List (Nat × H.Op)) : ∀ it : TokenIter H,
    (∀ r, (TokenUnwind.buildLoop S boom line eol es it).1 = .done r → TokenIter.buildLoop S line eol es it = .ok (r, (TokenUnwind.buildLoop S boom line eol es it).2)) ∧
    ((∃ p, TokenIter.buildLoop S line eol es it = .error p) → (TokenUnwind.buildLoop S boom line eol es it).1 = .unwound) ∧
    ((∀ e, boom e = false) → (TokenUnwind.buildLoop S boom line eol es it).1 = .unwound → ∃ p, TokenIter.buildLoop S line eol es it = .error p) := by
  have fail : ∀ (e : H.Err) (it : TokenIter H),
      (∀ r, (failed (α := Option (Token H.Scopes)) boom e, it).1 = .done r → (.ok (.error e, it) : R (Except H.Err (Option (Token H.Scopes)) × TokenIter H)) = .ok (r, (failed (α := Option (Token H.Scopes)) boom e, it).2)) ∧
      ((∃ p, (.ok (.error e, it) : R (Except H.Err (Option (Token H.Scopes)) × TokenIter H)) = .error p) → (failed (α := Option (Token H.Scopes)) boom e, it).1 = .unwound) ∧
      ((∀ e, boom e = false) → (failed (α := Option (Token H.Scopes)) boom e, it).1 = .unwound → ∃ p, (.ok (.error e, it) : R (Except H.Err (Option (Token H.Scopes)) × TokenIter H)) = .error p) := by
    intro e it
    dsimp only [failed]
    cases hb : boom e with
    | true => exact ⟨fun r h => (by cases h), fun ⟨p, h⟩ => (by cases h), fun h _ => by rw [h] at hb; cases hb⟩
    | false => exact ⟨fun r h => (by cases h; rfl), fun ⟨p, h⟩ => (by cases h), fun _ h => (by cases h)⟩
  induction es with
  | nil =>
    intro it
    simp only [TokenUnwind.buildLoop, TokenIter.buildLoop]
    by_cases hlt : it.byteOffset < eol
    · simp only [if_pos hlt]
      cases strSlice line it.byteOffset eol with
      | error p => exact ⟨fun r h => (by cases h), fun _ => rfl, fun _ _ => ⟨p, rfl⟩⟩
      | ok v => exact ⟨fun r h => (by cases h; rfl), fun ⟨p, h⟩ => (by cases h), fun _ h => (by cases h)⟩
    · simp only [if_neg hlt]
      exact ⟨fun r h => (by cases h; rfl), fun ⟨p, h⟩ => (by cases h), fun _ h => (by cases h)⟩
  | cons e es ih =>
    intro it
    obtain ⟨off, op⟩ := e
    simp only [TokenUnwind.buildLoop, TokenIter.buildLoop]
    by_cases hgt : off > it.byteOffset
    · simp only [if_pos hgt]
      cases strSlice line it.byteOffset (min off eol) with
      | error p => exact ⟨fun r h => (by cases h), fun _ => rfl, fun _ _ => ⟨p, rfl⟩⟩
      | ok v =>
        simp only [Except.ok_bind']
        cases H.apply it.scopes op with
        | mk k er =>
          cases er with
          | none => exact ⟨fun r h => (by cases h; rfl), fun ⟨p, h⟩ => (by cases h), fun _ h => (by cases h)⟩
          | some e => exact fail e _
    · simp only [if_neg hgt]
      cases H.apply it.scopes op with
      | mk k er =>
        cases er with
        | none => exact ih _
        | some e => exact fail e _

/-- C107: a call that returns does what C103 and the claims before it say; a call of the other model that panics is unwound here, and if the highlighter itself never panics nothing else is. -/
theorem C107_same (S : Segmenter) (H : Highlighter) (boom : H.Err → Bool) (it : TokenIter H) :
    (∀ o, (TokenUnwind.next S boom it).1 = .done o → TokenIter.next S it = .ok (o, (TokenUnwind.next S boom it).2)) ∧
    ((∃ p, TokenIter.next S it = .error p) → (TokenUnwind.next S boom it).1 = .unwound) ∧
    ((∀ e, boom e = false) → (TokenUnwind.next S boom it).1 = .unwound → ∃ p, TokenIter.next S it = .error p) := by
  have hb : (∀ r, (TokenUnwind.buildNextToken S boom it).1 = .done r → TokenIter.buildNextToken S it = .ok (r, (TokenUnwind.buildNextToken S boom it).2)) ∧
    ((∃ p, TokenIter.buildNextToken S it = .error p) → (TokenUnwind.buildNextToken S boom it).1 = .unwound) ∧
    ((∀ e, boom e = false) → (TokenUnwind.buildNextToken S boom it).1 = .unwound → ∃ p, TokenIter.buildNextToken S it = .error p) := by
    simp only [TokenUnwind.buildNextToken, TokenIter.buildNextToken]
    cases it.currentLine with
    | none => exact ⟨fun r h => (by cases h; rfl), fun ⟨p, h⟩ => (by cases h), fun _ h => (by cases h)⟩
    | some line =>
      dsimp only
      cases TokenIter.endOfLine line with
      | error p => exact ⟨fun r h => (by cases h), fun _ => rfl, fun _ _ => ⟨p, rfl⟩⟩
      | ok eol => exact build_same S boom line eol it.lineEvents it
  unfold TokenUnwind.next TokenIter.next
  generalize TokenUnwind.buildNextToken S boom it = x at hb ⊢
  obtain ⟨o, it1⟩ := x
  obtain ⟨b1, b2, b3⟩ := hb
  cases o with
  | unwound =>
    refine ⟨fun r h => (by cases h), fun _ => rfl, fun h _ => ?_⟩
    obtain ⟨p, hp⟩ := b3 h rfl
    exact ⟨p, by rw [hp]; rfl⟩
  | done r =>
    rw [b1 r rfl]
    simp only [Except.ok_bind']
    cases r with
    | error e => exact ⟨fun r h => (by cases h; rfl), fun ⟨p, h⟩ => (by cases h), fun _ h => (by cases h)⟩
    | ok t =>
      cases t with
      | some t => exact ⟨fun r h => (by cases h; rfl), fun ⟨p, h⟩ => (by cases h), fun _ h => (by cases h)⟩
      | none =>
        dsimp only
        have hp := parse_same boom it1
        generalize TokenUnwind.parseNextLine boom it1 = x at hp ⊢
        obtain ⟨o, it2⟩ := x
        obtain ⟨b1, b2, b3⟩ := hp
        cases o with
        | unwound =>
          refine ⟨fun r h => (by cases h), fun _ => rfl, fun h _ => ?_⟩
          obtain ⟨p, hp⟩ := b3 h rfl
          exact ⟨p, by rw [hp]; rfl⟩
        | done r =>
          rw [b1 r rfl]
          simp only [Except.ok_bind']
          cases r with
          | error e => exact ⟨fun r h => (by cases h; rfl), fun ⟨p, h⟩ => (by cases h), fun _ h => (by cases h)⟩
          | ok u => exact ⟨fun r h => (by cases h; rfl), fun ⟨p, h⟩ => (by cases h), fun _ h => (by cases h)⟩

/-- Where a line can be cut. -/
theorem cut_iff {line a rest : Text} {off : Nat} (hb : line = a ++ rest) (hgt : blen a < off) :
    ¬ ((splitBytes (off - blen a) rest).2 ≠ [] ∧ blen (splitBytes (off - blen a) rest).1 ≠ off - blen a) ↔
      (blen line ≤ off ∨ ∃ i, i ≤ line.length ∧ blen (line.take i) = off) := by
  have hj := splitBytes_join (off - blen a) rest
  have hl := splitBytes_le (off - blen a) rest
  constructor
  · intro h
    by_cases h2 : (splitBytes (off - blen a) rest).2 = []
    · left
      rw [h2, List.append_nil] at hj
      rw [hj] at hl
      rw [hb, blen_append]; omega
    · right
      have h1 : blen (splitBytes (off - blen a) rest).1 = off - blen a := Classical.byContradiction fun k => h ⟨h2, k⟩
      refine ⟨(a ++ (splitBytes (off - blen a) rest).1).length, ?_, ?_⟩
      · rw [hb, List.length_append, List.length_append]
        have := congrArg List.length hj
        rw [List.length_append] at this
        omega
      · have : line = (a ++ (splitBytes (off - blen a) rest).1) ++ (splitBytes (off - blen a) rest).2 := by rw [hb, List.append_assoc, hj]
        rw [this, List.take_left' rfl, blen_append, h1]; omega
  · rintro (h | ⟨i, hi, h⟩) ⟨k1, k2⟩
    · refine k1 ?_
      rw [splitBytes_all _ (by rw [hb, blen_append] at h; omega)]
    · refine k2 ?_
      obtain ⟨v, hv1, hv2⟩ := prefix_of_blen (x := a) (y := rest) (u := line.take i) (w := line.drop i) (by rw [List.take_append_drop, hb]) (by omega)
      have : off - blen a = blen v := by rw [← h, hv1, blen_append]; omega
      rw [hv2, this, splitBytes_append]

theorem lineGoes_cautious {H : Highlighter} (segs : Text → List Text) (n : Nat) (line : Text) (es : List (Nat × H.Op)) :
    ∀ (o col : Nat) (k : H.Scopes) (left : Option Text), ((∃ a rest, left = some rest ∧ line = a ++ rest ∧ o = blen a) ∨ (left = none ∧ blen line < o)) →
      lineCalls (H := H) segs n o col k left (cuts line o es) =
        ((lineGoes (fun _ => false) segs n o col k left es).1.filterMap Happens.calm, some (lineGoes (fun _ => false) segs n o col k left es).2) := by
  induction es with
  | nil =>
    intro o col k left _
    simp only [cuts, lineCalls, lineGoes]
    split <;> rfl
  | cons e es ih =>
    intro o col k left ho
    obtain ⟨off, op⟩ := e
    simp only [cuts, lineGoes]
    by_cases hle : off ≤ o
    · simp only [if_pos hle, lineCalls]
      rw [ih o col _ left ho]
      simp only [List.filterMap_append]
      congr 2
      cases (H.apply k op).2 <;> rfl
    · simp only [if_neg hle]
      rcases ho with ⟨a, rest, rfl, hb, rfl⟩ | ⟨rfl, ho⟩
      · have hcut := cut_iff (off := off) hb (by omega)
        have hin : blen a ≤ blen line := by rw [hb, blen_append]; omega
        dsimp only
        by_cases hbad : (splitBytes (off - blen a) rest).2 ≠ [] ∧ blen (splitBytes (off - blen a) rest).1 ≠ off - blen a
        · rw [if_neg (fun h => (hcut.mpr h.2) hbad), if_pos hbad, ih _ col k (some rest) (Or.inl ⟨a, rest, rfl, hb, rfl⟩)]
          rfl
        · rw [if_pos ⟨hin, hcut.mp hbad⟩, if_neg hbad]
          simp only [lineCalls, if_neg hle, if_neg hbad]
          have hj := splitBytes_join (off - blen a) rest
          have hl := splitBytes_le (off - blen a) rest
          rw [ih off _ _ (if off - blen a ≤ blen rest then some (splitBytes (off - blen a) rest).2 else none) ?_]
          · cases (H.apply k op).2 <;> rfl
          · by_cases hr : off - blen a ≤ blen rest
            · rw [if_pos hr]
              refine Or.inl ⟨a ++ (splitBytes (off - blen a) rest).1, _, rfl, by rw [List.append_assoc, hj, hb], ?_⟩
              have : blen (splitBytes (off - blen a) rest).1 = off - blen a := by
                by_cases h2 : (splitBytes (off - blen a) rest).2 = []
                · rw [h2, List.append_nil] at hj
                  rw [hj] at hl ⊢; omega
                · exact Classical.byContradiction fun k => hbad ⟨h2, k⟩
              rw [blen_append, this]; omega
            · rw [if_neg hr]
              exact Or.inr ⟨rfl, by rw [hb, blen_append]; omega⟩
      · dsimp only
        rw [if_neg (fun h => by omega), ih o col k none (Or.inr ⟨rfl, ho⟩)]
        rfl

theorem lineCalls_cautious {H : Highlighter} (segs : Text → List Text) (n : Nat) (ds : List (Nat × H.Op)) : ∀ (o col : Nat) (k : H.Scopes) (left : Option Text),
    lineCalls (H := cautious H) segs n o col k left ds = lineCalls (H := H) segs n o col k left ds := by
  induction ds with
  | nil => intro o col k left; rfl
  | cons d ds ihd =>
    intro o col k left
    obtain ⟨off, op⟩ := d
    simp only [lineCalls]
    split
    · rw [ihd]
    · cases left with
      | none => rfl
      | some r => dsimp only; rw [ihd]

theorem linesGo_cautious {H : Highlighter} (segs : Text → List Text) (ls : List Text) : ∀ (n : Nat) (k : H.Scopes) (p : H.Parser),
    linesCalls (H := cautious H) segs n k p ls = ((linesGo (H := H) (fun _ => false) segs n k p ls).filterMap Happens.calm, false) := by
  induction ls with
  | nil => intro n k p; rfl
  | cons l ls ih =>
    intro n k p
    simp only [linesCalls, linesGo]
    cases H.parse p l with
    | mk p' res =>
      cases res with
      | error e =>
        dsimp only
        rw [ih]; rfl
      | ok es =>
        dsimp only
        have h := lineGoes_cautious (H := H) segs n (l.filter (· != '\n')) es 0 0 k (some (l.filter (· != '\n'))) (Or.inl ⟨[], _, rfl, rfl, rfl⟩)
        have h' : lineCalls (H := cautious H) segs n 0 0 k (some (l.filter (· != '\n'))) (cuts (H := H) (l.filter (· != '\n')) 0 es) =
          lineCalls (H := H) segs n 0 0 k (some (l.filter (· != '\n'))) (cuts (l.filter (· != '\n')) 0 es) :=
          lineCalls_cautious segs n _ _ _ _ _
        rw [h', h]
        dsimp only
        rw [ih, List.cons_append, List.cons_append, List.filterMap_cons]
        simp only [Happens.calm, List.filterMap_append]

/-- C107: if the highlighter itself does not panic, a panic costs one call and one event: the calls that do not panic are those of C103 for the same highlighter with a parser that
does not report the events where the line cannot be cut; with that one nothing panics. -/
theorem C107_forgotten (segs : Text → List Text) (H : Highlighter) (data : Text) :
    callRun segs (cautious H) data = (goRun segs H (fun _ => false) data).map fun cs => (cs.filterMap Happens.calm, false) := by
  unfold callRun goRun
  have hp : ((cautious H).parse H.parser ((fileLines data).headD [])).2 = (H.parse H.parser ((fileLines data).headD [])).2.map (cuts (((fileLines data).headD []).filter (· != '\n')) 0) := by
    dsimp only
    cases H.parse H.parser ((fileLines data).headD []) with
    | mk p' res => cases res <;> rfl
  cases hq : (H.parse H.parser ((fileLines data).headD [])).2 with
  | error e => rw [hp, hq]; rfl
  | ok es =>
    rw [hp, hq]
    change Except.ok _ = Except.ok _
    have := linesGo_cautious (H := H) segs (fileLines data) 0 H.scopes H.parser
    change linesCalls (H := cautious H) segs 0 (cautious H).scopes (cautious H).parser (fileLines data) = _ at this
    dsimp only
    congr 1
    rw [this]
    dsimp only
    congr 1
    cases hf : fileLines data with
    | nil => rfl
    | cons l ls =>
      rw [hf] at hq
      simp only [List.headD_cons] at hq
      simp only [linesGo]
      cases hr : H.parse H.parser l with
      | mk p' res =>
        rw [hr] at hq; cases hq
        rfl

theorem lineGoes_pieces {H : Highlighter} (boom : H.Err → Bool) (segs : Text → List Text) (n : Nat) (es : List (Nat × H.Op)) : ∀ (o col : Nat) (k : H.Scopes) (left : Option Text) (t : Token H.Scopes),
    .token t ∈ (lineGoes boom segs n o col k left es).1 → ∃ v k' c a b, t = .lexeme v k' ⟨n, c⟩ ∧ left = some (a ++ v ++ b) := by
  have never : ∀ (e : H.Err) (t : Token H.Scopes), Happens.token t ≠ Happens.of boom e := by
    intro e t h
    unfold Happens.of at h
    split at h <;> cases h
  induction es with
  | nil =>
    intro o col k left t h
    simp only [lineGoes] at h
    split at h
    · cases h
    · next hl =>
      cases left with
      | none => exact absurd rfl hl
      | some r => cases List.mem_singleton.mp h; exact ⟨r, k, col, [], [], rfl, by simp⟩
  | cons e es ih =>
    intro o col k left t h
    obtain ⟨off, op⟩ := e
    simp only [lineGoes] at h
    by_cases hle : off ≤ o
    · simp only [if_pos hle] at h
      rcases List.mem_append.mp h with h | h
      · cases he : (H.apply k op).2 with
        | none => rw [he] at h; cases h
        | some e => rw [he] at h; exact absurd (List.mem_singleton.mp h) (never e t)
      · exact ih _ _ _ _ _ h
    · simp only [if_neg hle] at h
      cases left with
      | none =>
        rcases List.mem_cons.mp h with h | h
        · cases h
        · exact ih _ _ _ _ _ h
      | some r =>
        dsimp only at h
        have hj := splitBytes_join (off - o) r
        by_cases hbad : (splitBytes (off - o) r).2 ≠ [] ∧ blen (splitBytes (off - o) r).1 ≠ off - o
        · rw [if_pos hbad] at h
          rcases List.mem_cons.mp h with h | h
          · cases h
          · exact ih _ _ _ _ _ h
        · rw [if_neg hbad] at h
          rcases List.mem_cons.mp h with h | h
          · cases he : (H.apply k op).2 with
            | none => rw [he] at h; cases h; exact ⟨_, k, col, [], (splitBytes (off - o) r).2, rfl, by rw [List.nil_append, hj]⟩
            | some e => rw [he] at h; exact absurd h (never e t)
          · obtain ⟨v, k', c, a, b, h1, h2⟩ := ih _ _ _ _ _ h
            split at h2
            · refine ⟨v, k', c, (splitBytes (off - o) r).1 ++ a, b, h1, ?_⟩
              have h3 := Option.some.inj h2
              rw [h3] at hj
              rw [List.append_assoc, List.append_assoc, ← List.append_assoc a, hj]
            · cases h2

theorem linesGo_pieces {H : Highlighter} (boom : H.Err → Bool) (segs : Text → List Text) (ls : List Text) : ∀ (n : Nat) (k : H.Scopes) (p : H.Parser) (v : Text) (k' : H.Scopes) (q : Position),
    .token (.lexeme v k' q) ∈ linesGo boom segs n k p ls → ∃ i l a b, q.line = n + i ∧ ls[i]? = some l ∧ l.filter (· != '\n') = a ++ v ++ b := by
  induction ls with
  | nil => intro n k p v k' q h; cases h
  | cons l ls ih =>
    intro n k p v k' q h
    simp only [linesGo] at h
    have rest : ∀ k p, .token (.lexeme v k' q) ∈ linesGo boom segs (n + 1) k p ls →
        ∃ i l', ∃ a b : Text, q.line = n + i ∧ (l :: ls)[i]? = some l' ∧ l'.filter (· != '\n') = a ++ v ++ b := by
      intro k p h
      obtain ⟨i, l', a, b, h1, h2, h3⟩ := ih _ _ _ _ _ _ h
      exact ⟨i + 1, l', a, b, by omega, h2, h3⟩
    cases hp : H.parse p l with
    | mk p' res =>
      rw [hp] at h
      cases res with
      | error e =>
        rcases List.mem_cons.mp h with h | h
        · unfold Happens.of at h
          split at h <;> cases h
        · exact rest _ _ h
      | ok es =>
        dsimp only at h
        rcases List.mem_append.mp h with h | h
        · rcases List.mem_cons.mp h with h | h
          · cases h
          · obtain ⟨v', k'', c, a, b, h1, h2⟩ := lineGoes_pieces boom segs n _ _ _ _ _ _ h
            cases h1
            exact ⟨0, l, a, b, rfl, rfl, Option.some.inj h2⟩
        · exact rest _ _ h

/-- C107: also after caught panics every lexeme that is returned is a piece of the line its position names. -/
theorem C107_pieces (S : Segmenter) (H : Highlighter) (boom : H.Err → Bool) (data : Text) (it : TokenIter H) (hn : TokenUnwind.new boom data = .done (.ok it)) (n : Nat)
    (v : Text) (k : H.Scopes) (p : Position) (w : Option H.Err) (ho : (.done (some (.lexeme v k p)), w) ∈ behold S boom n it) :
    ∃ l a b, (fileLines data)[p.line]? = some l ∧ l.filter (· != '\n') = a ++ v ++ b := by
  have h := C107_calls S H boom data
  have mem : ∀ cs, ∀ w0 : Option H.Err, ∀ t, (Out.done (some t), w) ∈ noted w0 cs → .token t ∈ cs := by
    intro cs
    induction cs with
    | nil => intro w0 t h; cases h
    | cons c cs ih =>
      intro w0 t h
      cases c <;> (
        rcases List.mem_cons.mp h with h | h
        · cases h <;> exact List.mem_cons_self
        · exact List.mem_cons_of_mem _ (ih _ _ h))
  cases hc : goRun S.segs H boom data with
  | error e =>
    rw [hc] at h
    simp only at h
    rw [h] at hn
    split at hn <;> cases hn
  | ok cs =>
    rw [hc] at h
    obtain ⟨it', h1, h2⟩ := h
    rw [hn] at h1; cases h1
    rw [h2 n] at ho
    have hcs : .token (.lexeme v k p) ∈ cs := by
      rcases List.mem_append.mp (List.mem_of_mem_take ho) with h | h
      · exact mem _ _ _ h
      · cases (List.mem_replicate.mp h).2
    unfold goRun at hc
    cases hp : (H.parse H.parser ((fileLines data).headD [])).2 with
    | error e => rw [hp] at hc; cases hc
    | ok es =>
      rw [hp] at hc
      cases hc
      obtain ⟨i, l, a, b, h1, h2, h3⟩ := linesGo_pieces (H := H) boom S.segs (fileLines data) 0 H.scopes H.parser v k p (List.mem_of_mem_tail hcs)
      rw [Nat.zero_add] at h1
      exact ⟨l, a, b, h1 ▸ h2, h3⟩

/-! ### Examples -/

/-- What is seen in `n` calls; `none` is a panic. `boom` are the errors that are panics. -/
def demoGoes (boom : Nat → Bool) (offs : List (Nat × Nat)) (t : String) (n : Nat) : List (Option (Option Streamed) × Option Nat) :=
  match TokenUnwind.new (H := bytesH offs) boom (Demo.s t) with
  | .done (.ok it) => (behold (H := bytesH offs) Demo.seg boom n it).map fun o =>
    (match o.1 with | .unwound => none | .done r => some (r.map (fun t => match t with | .newline => .newline | .lexeme v k p => .lexeme v k p)), o.2)
  | _ => []

/-- An event inside of `é` costs a panic; its scope is not applied, and the next event cuts as if it had not been there. -/
example : demoGoes (fun _ => false) [(1, 7), (2, 5)] "éb" 4 = [(none, none), (some (some (.lexeme (Demo.s "é") [] ⟨0, 0⟩)), none), (some (some (.lexeme (Demo.s "b") [5] ⟨0, 1⟩)), none),
    (some none, none)] := by decide +kernel

/-- Two events behind the end of a line: the second costs a panic, then comes the next line. -/
example : demoGoes (fun _ => false) [(3, 7), (4, 5)] "a\nb" 7 = [(some (some (.lexeme (Demo.s "a") [] ⟨0, 0⟩)), none), (none, none), (some (some .newline), none),
    (some (some (.lexeme (Demo.s "b") [7] ⟨1, 0⟩)), none), (none, none), (some none, none), (some none, none)] := by decide +kernel

/-- The parser panics at the second line: it is passed over, as after an error, but `error` stays empty. -/
example : demoGoes (fun _ => true) [] "a\n!b\nc" 5 = [(some (some (.lexeme (Demo.s "a") [] ⟨0, 0⟩)), none), (none, none), (some (some .newline), none),
    (some (some (.lexeme (Demo.s "c") [] ⟨2, 0⟩)), none), (some none, none)] := by decide +kernel

end Scribe.Props
