import Verif.Proofs.TokenStream
/-! # The tokens of two texts with the same beginning -/
namespace Scribe.TokenIter
open Spec
variable {S : Segmenter} {H : Highlighter}

theorem At.unique {it : LineIter} {a b : Option (Nat × Text)} (h : LineIter.At it a) (h' : LineIter.At it b) : a = b := by
  cases h with
  | done h =>
    cases h' with
    | done _ => rfl
    | at_ x r h1 _ _ => rw [h] at h1; cases h1
  | at_ x r h1 h2 h3 =>
    cases h' with
    | done h => rw [h] at h1; cases h1
    | at_ y s _ k2 k3 =>
      obtain ⟨z, e1, e2⟩ := prefix_of_blen (h2.symm.trans k2) (by omega)
      have hz : blen z = 0 := by rw [e1, blen_append] at k3; omega
      rw [blen_eq_zero] at hz
      subst hz
      rw [e2]; rfl

theorem buildLoop_lines (l : LineIter) (line : Text) (eol : Nat) (es : List (Nat × H.Op)) (it : TokenIter H) :
    buildLoop S line eol es { it with lines := l } = (buildLoop S line eol es it).map fun r => (r.1, { r.2 with lines := l }) := by
  induction es generalizing it with
  | nil =>
    unfold buildLoop
    simp only
    split
    · cases strSlice line it.byteOffset eol <;> rfl
    · rfl
  | cons e es ih =>
    obtain ⟨offset, op⟩ := e
    unfold buildLoop
    simp only
    split
    · cases strSlice line it.byteOffset (min offset eol) with
      | error _ => rfl
      | ok v =>
        simp only [Except.ok_bind']
        rcases H.apply it.scopes op with ⟨k, _ | e⟩ <;> rfl
    · rcases H.apply it.scopes op with ⟨k, _ | e⟩
      · exact ih { it with lineEvents := es, scopes := k }
      · rfl

theorem buildLoop_keeps (line : Text) (eol : Nat) (es : List (Nat × H.Op)) (it it' : TokenIter H) (res)
    (h : buildLoop S line eol es it = .ok (res, it')) : it'.lines = it.lines := by
  have := buildLoop_lines (S := S) it.lines line eol es it
  rw [show ({ it with lines := it.lines } : TokenIter H) = it from rfl, h] at this
  simp only [Except.map, Except.ok.injEq, Prod.mk.injEq, true_and] at this
  rw [this]

theorem buildNextToken_lines (l : LineIter) (it : TokenIter H) :
    buildNextToken S { it with lines := l } = (buildNextToken S it).map fun r => (r.1, { r.2 with lines := l }) := by
  obtain ⟨sc, pa, ls, _ | line, bo, po, le, er⟩ := it
  · rfl
  · unfold buildNextToken
    simp only
    cases endOfLine line with
    | error _ => rfl
    | ok eol => exact buildLoop_lines (S := S) l line eol le ⟨sc, pa, ls, some line, bo, po, le, er⟩

theorem buildNextToken_keeps {it it' : TokenIter H} {res} (h : buildNextToken S it = .ok (res, it')) : it'.lines = it.lines := by
  have := buildNextToken_lines (S := S) it.lines it
  rw [show ({ it with lines := it.lines } : TokenIter H) = it from rfl, h] at this
  simp only [Except.map, Except.ok.injEq, Prod.mk.injEq, true_and] at this
  rw [this]

/-- Both line iterators are before the end of a line with the same text up to it. -/
def Shared' (x x' : Text) (l l' : LineIter) : Prop :=
  ∃ k u, LineIter.At l (some (k, u ++ '\n' :: x)) ∧ LineIter.At l' (some (k, u ++ '\n' :: x'))
/-- Both are behind it. -/
def Past (x x' : Text) (l l' : LineIter) : Prop :=
  ∃ k, LineIter.At l (some (k, x)) ∧ LineIter.At l' (some (k, x'))

theorem next_shared {x x' : Text} {l l' : LineIter} (h : Shared' x x' l l') : ∃ k line m m', l.next = .ok (some (k, line), m) ∧
    l'.next = .ok (some (k, line), m') ∧ (Shared' x x' m m' ∨ Past x x' m m') := by
  obtain ⟨k, u, h1, h2⟩ := h
  rcases line_cases u with hu | ⟨a, r, ha, rfl⟩
  · obtain ⟨m, e1, e2⟩ := LineIter.next_line h1 hu
    obtain ⟨m', f1, f2⟩ := LineIter.next_line h2 hu
    exact ⟨k, _, m, m', e1, f1, .inr ⟨k + 1, e2, f2⟩⟩
  · rw [List.append_assoc, List.cons_append] at h1 h2
    obtain ⟨m, e1, e2⟩ := LineIter.next_line h1 ha
    obtain ⟨m', f1, f2⟩ := LineIter.next_line h2 ha
    exact ⟨k, _, m, m', e1, f1, .inl ⟨k + 1, r, e2, f2⟩⟩

theorem parse_shared {x x' : Text} {it : TokenIter H} {l' : LineIter} (h : Shared' x x' it.lines l') :
    ∃ res it1 m', parseNextLine it = .ok (res, it1) ∧ parseNextLine { it with lines := l' } = .ok (res, { it1 with lines := m' }) ∧
      (Shared' x x' it1.lines m' ∨ Past x x' it1.lines m') ∧ (res = .ok () → it1.currentLine.isSome) := by
  obtain ⟨k, line, m, m', e1, e2, e3⟩ := next_shared h
  unfold parseNextLine
  simp only [e1, e2, Except.ok_bind']
  rcases H.parse it.parser line with ⟨p, e | es⟩
  · exact ⟨_, _, m', rfl, rfl, e3, by intro h; cases h⟩
  · exact ⟨_, _, m', rfl, rfl, e3, fun _ => rfl⟩

/-- A call on both sides. -/
theorem next_twin {all : List (List (Nat × H.Op))} {pre : List (Token H.Scopes)} {p x x' rem : Text} {it : TokenIter H} {l' : LineIter}
    (hg : Good S it all pre rem) (hp : render pre ++ rem = p ++ '\n' :: x) (h : Shared' x x' it.lines l' ∨ Past x x' it.lines l') :
    render pre = p ∨ ∃ o it1 m', next S it = .ok (o, it1) ∧ next S { it with lines := l' } = .ok (o, { it1 with lines := m' }) ∧
      ((o = none ∧ it1.error.isSome) ∨ (o.isSome ∧ (Shared' x x' it1.lines m' ∨ Past x x' it1.lines m'))) := by
  have spec : ∃ res it1, buildNextToken S it = .ok (res, it1) ∧ (res = .ok none → Between (S := S) it1 all pre rem) := by
    rcases hg with hb | ⟨body, nl, a, b, tail, todo, evs, applied, hw⟩
    · refine ⟨_, _, by unfold buildNextToken; rw [hb.line], fun _ => ?_⟩
      rw [← hb.line]; exact hb
    · obtain ⟨res, it1, h1, h2⟩ := buildLoop_spec it.lineEvents hw rfl
      refine ⟨res, it1, ?_, ?_⟩
      · unfold buildNextToken
        rw [hw.line]
        simp only
        rw [endOfLine_eq hw.nonl (hw.nlCases.imp And.left And.left), Except.ok_bind']
        exact h1
      · rintro rfl; exact h2
  obtain ⟨res, it1, h1, h2⟩ := spec
  have hk := buildNextToken_keeps h1
  have h1' := buildNextToken_lines (S := S) l' it
  rw [h1] at h1'
  simp only [Except.map] at h1'
  rcases res with e | _ | tok
  · right
    refine ⟨none, { it1 with error := some e }, l', ?_, ?_, .inl ⟨rfl, rfl⟩⟩
    · unfold next; simp only [h1, Except.ok_bind']
    · unfold next; simp only [h1', Except.ok_bind']
  · have hb := h2 rfl
    rcases h with h | ⟨k, h, _⟩
    · right
      rw [← hk] at h
      obtain ⟨res, it2, m', f1, f2, f3, f4⟩ := parse_shared h
      cases res with
      | error e =>
        refine ⟨none, { it2 with error := some e }, m', ?_, ?_, .inl ⟨rfl, rfl⟩⟩
        · unfold next; simp only [h1, Except.ok_bind', f1]
        · unfold next; simp only [h1', Except.ok_bind', f2]
      | ok _ =>
        have hs := f4 rfl
        refine ⟨some .newline, it2, m', ?_, ?_, .inr ⟨rfl, f3⟩⟩
        · unfold next; simp only [h1, Except.ok_bind', f1, hs, if_true]
        · unfold next; simp only [h1', Except.ok_bind', f2, hs, if_true]
    · left
      obtain ⟨todo, hf, _⟩ := hb.follows
      rw [hk] at hf
      cases hf with
      | none h' => cases At.unique h h'
      | some r h' =>
        have := At.unique h h'
        simp only [Option.some.injEq, Prod.mk.injEq] at this
        rw [← this.2] at hp
        exact List.append_cancel_right hp
  · right
    refine ⟨some tok, it1, l', ?_, ?_, .inr ⟨rfl, by rw [hk]; exact h⟩⟩
    · unfold next; simp only [h1, Except.ok_bind']
    · unfold next; simp only [h1', Except.ok_bind']

theorem collects_twin {all : List (List (Nat × H.Op))} {p x x' : Text} (hO : OffsetsOk H) {it e : TokenIter H} {ts : List (Token H.Scopes)}
    (hc : Collects S it ts e) : ∀ {pre rem l' ts' e'}, Good S it all pre rem → render pre ++ rem = p ++ '\n' :: x →
      (Shared' x x' it.lines l' ∨ Past x x' it.lines l') → Collects S { it with lines := l' } ts' e' →
      (∃ zs r r', ts = zs ++ r ∧ ts' = zs ++ r' ∧ render (pre ++ zs) = p) ∨ (ts = ts' ∧ e.error = e'.error ∧ e.error.isSome) := by
  induction hc with
  | @stop it e h =>
    intro pre rem l' ts' e' hg hp ht hc'
    rcases next_twin hg hp ht with h1 | ⟨o, it1, m', h1, h2, h3⟩
    · exact .inl ⟨[], _, _, rfl, rfl, by simpa using h1⟩
    · rw [h] at h1
      obtain ⟨rfl, rfl⟩ := Prod.mk.inj (Except.ok.inj h1)
      rcases h3 with ⟨_, h3⟩ | ⟨h3, _⟩
      · cases hc' with
        | stop k =>
          rw [h2] at k
          obtain ⟨_, rfl⟩ := Prod.mk.inj (Except.ok.inj k)
          exact .inr ⟨rfl, rfl, h3⟩
        | next k _ => rw [h2] at k; cases k
      · cases h3
  | @next it it1 e t ts h _ ih =>
    intro pre rem l' ts' e' hg hp ht hc'
    rcases next_twin hg hp ht with h1 | ⟨o, it2, m', h1, h2, h3⟩
    · exact .inl ⟨[], _, _, rfl, rfl, by simpa using h1⟩
    · rw [h] at h1
      obtain ⟨rfl, rfl⟩ := Prod.mk.inj (Except.ok.inj h1)
      rcases h3 with ⟨h3, _⟩ | ⟨_, h3⟩
      · cases h3
      · obtain ⟨o, it3, k1, k2⟩ := next_spec hO hg
        rw [h] at k1
        obtain ⟨rfl, rfl⟩ := Prod.mk.inj (Except.ok.inj k1)
        have hgood : ∃ rem', Good S it1 all (pre ++ [t]) rem' ∧ render (pre ++ [t]) ++ rem' = p ++ '\n' :: x := by
          rcases k2 with k2 | ⟨rfl, rem', k3, _, k5⟩
          · obtain ⟨v, rem', e1, e2, e3, _⟩ := k2.ex
            refine ⟨rem', e3, ?_⟩
            rw [← hp, render_append, e1, e2]; simp [render]
          · refine ⟨rem', k5, ?_⟩
            rw [← hp, render_append, k3]; simp [render]
        obtain ⟨rem', g1, g2⟩ := hgood
        cases hc' with
        | stop k => rw [h2] at k; cases k
        | @next _ itx _ t' ts'' k hrest =>
          rw [h2] at k
          obtain ⟨k1, rfl⟩ := Prod.mk.inj (Except.ok.inj k)
          cases k1
          rcases ih g1 g2 h3 hrest with ⟨zs, r, r', rfl, rfl, e3⟩ | ⟨rfl, e2, e3⟩
          · exact .inl ⟨t :: zs, r, r', rfl, rfl, by simpa using e3⟩
          · exact .inr ⟨rfl, e2, e3⟩

/-- Both iterators are created, or fail alike. -/
theorem new_twin (p x x' : Text) :
    (∃ e, new H (p ++ '\n' :: x) = .ok (.error e) ∧ new H (p ++ '\n' :: x') = .ok (.error e)) ∨
    ∃ it l', new H (p ++ '\n' :: x) = .ok (.ok it) ∧ new H (p ++ '\n' :: x') = .ok (.ok { it with lines := l' }) ∧
      (Shared' x x' it.lines l' ∨ Past x x' it.lines l') := by
  obtain ⟨res, it1, m', f1, f2, f3, _⟩ := parse_shared (H := H) (x := x) (x' := x') (l' := LineIter.new (p ++ '\n' :: x'))
    (it := {
      scopes := H.scopes, parser := H.parser, lines := LineIter.new (p ++ '\n' :: x), currentLine := none, byteOffset := 0, position := ⟨0, 0⟩
      lineEvents := [], error := none }) ⟨0, p, LineIter.at_new _, LineIter.at_new _⟩
  cases res with
  | error e => exact .inl ⟨e, by unfold new; simp only [f1, Except.ok_bind'], by unfold new; simp only [f2, Except.ok_bind']⟩
  | ok _ => exact .inr ⟨it1, m', by unfold new; simp only [f1, Except.ok_bind'], by unfold new; simp only [f2, Except.ok_bind'], f3⟩

end Scribe.TokenIter
