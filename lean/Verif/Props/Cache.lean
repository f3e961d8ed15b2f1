import Verif.Spec.Cache
import Verif.Proofs.Cache
import Verif.Props.Buffer
import Verif.Props.TokenStream
/-! # Property C91: caches kept with the change callback -/
namespace Scribe.Props
open Spec Buf TokenIter
variable {S : Segmenter} {β : Type}

theorem beforeLine_eq_some {segs : Text → List Text} {t x : Text} {n : Nat} :
    beforeLine segs t n = some x ↔ ∃ y, PlaceIn (segs t) ⟨n, 0⟩ x y := by
  unfold beforeLine
  constructor
  · intro h
    obtain ⟨⟨a, b⟩, h1, rfl⟩ := Option.map_eq_some_iff.mp h
    obtain ⟨h2, h3⟩ := locate_eq_some.mp h1
    exact ⟨b.flatten, a, b, h2, rfl, rfl, h3⟩
  · rintro ⟨y, a, b, h1, rfl, rfl, h2⟩
    rw [show locate (segs t) ⟨n, 0⟩ = some (a, b) from locate_eq_some.mpr ⟨h1, h2⟩]; rfl

theorem mem_reported (ps : List Position) (c : Cache β) (e : Nat × β) :
    e ∈ ps.foldl Cache.reported c ↔ e ∈ c ∧ ∀ p ∈ ps, e.1 ≤ p.line := by
  induction ps generalizing c with
  | nil => simp
  | cons p ps ih =>
    rw [List.foldl_cons, ih]
    simp only [Cache.reported, List.mem_filter, decide_eq_true_eq, List.forall_mem_cons]
    tauto

/-- **C91.** An application keeps values computed from the text before the start of some lines, and drops those of the lines after each position
that the change callback reports. In any session of clean calls, whatever values it computes and forgets in between, no call panics and the values
it has are those of the text at the time; the buffer is that of the calls alone. -/
theorem C91_cache (A : Alloc) (f : Text → β) (as : List Turn) (b : Buf) (d : Doc) (c : Cache β) (h : Reached S A b d) (hcb : b.callback = true)
    (hs : ∀ v, .setCallback v ∉ Turn.calls as) (hc : CleanCmds S.segs d (Turn.calls as)) (t : Text) (ht : b.data.toStr = .ok t)
    (hr : c.Right S.segs f t) :
    ∃ b' c' t', turns S A f (b, c) as = .ok (b', c') ∧ execAll S A b (Turn.calls as) = .ok b' ∧ b'.data.toStr = .ok t' ∧ c'.Right S.segs f t' := by
  induction as generalizing b d c t with
  | nil => exact ⟨b, c, t, rfl, rfl, ht, hr⟩
  | cons a as ih =>
    cases a with
    | call cmd =>
      rw [show Turn.calls (.call cmd :: as) = cmd :: Turn.calls as from rfl] at hs hc ⊢
      obtain ⟨hc1, hc2⟩ := hc
      have hs1 : ∀ v, cmd ≠ .setCallback v := fun v e => hs v (by rw [e]; exact List.mem_cons_self)
      obtain ⟨b1, t0, t1, ps, e1, e2, e3, e4, _, e6⟩ := C25_callback_covers_changes S A b d cmd h hcb hs1 hc1
      rw [ht] at e2
      cases e2
      have hcb1 : b1.callback = true := by
        obtain ⟨s, hs'⟩ := h.tri
        obtain ⟨b2, k1, k2⟩ := hs'.exec (A := A) cmd hc1
        rw [e1] at k1; cases k1
        obtain ⟨hk, _⟩ := covers_step hs'.sim (hs'.sim.face.callback.symm.trans hcb) cmd hc1 hs1
        exact k2.sim.face.callback.trans hk
      have hr1 : (ps.foldl Cache.reported c).Right S.segs f t1 := by
        intro e he
        obtain ⟨he1, he2⟩ := (mem_reported ps c e).mp he
        obtain ⟨x, hx1, hx2⟩ := hr e he1
        obtain ⟨y, hy⟩ := beforeLine_eq_some.mp hx1
        obtain ⟨y', hy'⟩ := e6 ⟨e.1, 0⟩ x y (fun p hp => by
          have := he2 p hp
          unfold AtOrBefore
          simp only
          omega) hy
        exact ⟨x, beforeLine_eq_some.mpr ⟨y', hy'⟩, hx2⟩
      obtain ⟨b', c', t', g1, g2, g3, g4⟩ := ih b1 (d.step S.segs cmd) (ps.foldl Cache.reported c) (h.step hc1 e1) hcb1
        (fun v hv => hs v (List.mem_cons_of_mem _ hv)) hc2 t1 e3 hr1
      refine ⟨b', c', t', ?_, ?_, g3, g4⟩
      · rw [turns, turn]
        simp only [e1, Except.ok_bind', e4, List.drop_left]
        exact g1
      · rw [execAll, e1]
        exact g2
    | compute n =>
      rw [show Turn.calls (.compute n :: as) = Turn.calls as from rfl] at hs hc ⊢
      cases hb : beforeLine S.segs t n with
      | none =>
        obtain ⟨b', c', t', g1, g2⟩ := ih b d c h hcb hs hc t ht hr
        refine ⟨b', c', t', ?_, g2⟩
        rw [turns, turn]
        simp only [ht, Except.ok_bind', hb]
        exact g1
      | some x =>
        obtain ⟨b', c', t', g1, g2⟩ := ih b d ((n, f x) :: c) h hcb hs hc t ht (by
          intro e he
          rcases List.mem_cons.mp he with rfl | he
          · exact ⟨x, hb, rfl⟩
          · exact hr e he)
        refine ⟨b', c', t', ?_, g2⟩
        rw [turns, turn]
        simp only [ht, Except.ok_bind', hb]
        exact g1
    | forget n =>
      rw [show Turn.calls (.forget n :: as) = Turn.calls as from rfl] at hs hc ⊢
      obtain ⟨b', c', t', g1, g2⟩ := ih b d (c.filter fun e => e.1 ≠ n) h hcb hs hc t ht (fun e he => hr e (List.mem_filter.mp he).1)
      exact ⟨b', c', t', g1, g2⟩

/-- C91: the tokens of a line do not depend on the text after its newline. For two texts with the same beginning, up to a newline, the iterator is
created for both or for neither, with the same error; and the tokens begin with the same tokens, whose text is that beginning, or the highlighter
fails before, and then it does so for both with the same error after the same tokens. -/
theorem C91_tokens (H : Highlighter) (hO : OffsetsOk H) (p x x' : Text) :
    (∃ e, TokenIter.new H (p ++ '\n' :: x) = .ok (.error e) ∧ TokenIter.new H (p ++ '\n' :: x') = .ok (.error e)) ∨
    ∃ it it', TokenIter.new H (p ++ '\n' :: x) = .ok (.ok it) ∧ TokenIter.new H (p ++ '\n' :: x') = .ok (.ok it') ∧
      ∀ ts ts' e e', Collects S it ts e → Collects S it' ts' e' →
        (∃ zs r r', ts = zs ++ r ∧ ts' = zs ++ r' ∧ render zs = p) ∨ (ts = ts' ∧ e.error = e'.error ∧ e.error.isSome) := by
  rcases new_twin (H := H) p x x' with h | ⟨it, l', h1, h2, h3⟩
  · exact .inl h
  · refine .inr ⟨it, _, h1, h2, fun ts ts' e e' hc hc' => ?_⟩
    obtain ⟨hg, _⟩ := new_good (S := S) hO h1
    have := collects_twin hO hc (pre := []) hg rfl h3 hc'
    simpa using this

/-- Values of lines 0 to 3; an edit on line 2 drops that of line 3; computed anew it is that of the new text. A newline on line 1 drops two. -/
private def demoTurns (k : Nat) : List Turn :=
  ([.call (.setCursor ⟨2, 1⟩), .call (.insert ['x']), .compute 3, .forget 0, .call (.deleteRange ⟨1, 0⟩ ⟨1, 1⟩)] : List Turn).take k
private def demoCache (k : Nat) : R (List Nat × List Text) := do
  let b ← exec Demo.seg Demo.tight (Buf.fromContent Demo.tight 0 (Demo.s "a\né\nb\nc")) (.setCallback true)
  let (_, c) ← turns Demo.seg Demo.tight id (b, []) (.compute 0 :: .compute 1 :: .compute 2 :: .compute 3 :: demoTurns k)
  return (c.map (·.1), c.map (·.2))
example : demoCache 0 = .ok ([3, 2, 1, 0], [Demo.s "a\né\nb\n", Demo.s "a\né\n", Demo.s "a\n", []]) := by decide +kernel
example : demoCache 2 = .ok ([2, 1, 0], [Demo.s "a\né\n", Demo.s "a\n", []]) := by decide +kernel
example : demoCache 4 = .ok ([3, 2, 1], [Demo.s "a\né\nbx\n", Demo.s "a\né\n", Demo.s "a\n"]) := by decide +kernel
example : demoCache 5 = .ok ([1], [Demo.s "a\n"]) := by decide +kernel

/-- The callback has to be set: without it, a value goes stale. -/
example : (do
    let (b, c) ← turns Demo.seg Demo.tight id (Buf.fromContent Demo.tight 0 (Demo.s "a\nb"), []) [.compute 1, .call (.insert ['x'])]
    return (c.map (·.2), (beforeLine Demo.seg.segs (← b.data.toStr) 1))) =
    Except.ok (ε := Panic) ([Demo.s "a\n"], some (Demo.s "xa\n")) := by decide +kernel

/-- The text of the line itself matters to its tokens: the same beginning without its newline gives other tokens. -/
example : tokensSeen [(1, 1)] "ab\nc" 3 = .ok (some [.lexeme (Demo.s "a") [], .lexeme (Demo.s "b") [1], .newline]) ∧
    tokensSeen [(1, 1)] "ab\nde\nf" 3 = .ok (some [.lexeme (Demo.s "a") [], .lexeme (Demo.s "b") [1], .newline]) ∧
    tokensSeen [(1, 1)] "abc" 3 = .ok (some [.lexeme (Demo.s "a") [], .lexeme (Demo.s "bc") [1], .nothing]) := by decide +kernel

end Scribe.Props
