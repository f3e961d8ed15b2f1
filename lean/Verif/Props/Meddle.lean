import Verif.Props.Shared
import Verif.Props.Ordinary
import Verif.Proofs.Recipe
import Verif.Proofs.Typing
/-!
# Property C66: undo after a callback that edits
-/
namespace Scribe.Shared
open Spec
variable {ξ : Type}

/-- C66: whatever the callback of an insertion leaves in the buffer, undo (without further callbacks) takes out of that the range that the inserted text had. -/
theorem C66_undo_takes_range (S : Segmenter) (A : Alloc) (f : Callback ξ) (w w1 : World ξ) (b b1 : Buf ξ) (s u : Text) (g : GapBuffer) (hg : b.group = none)
    (h : Buf.exec S A f w b (.insert s) = .ok (b1, w1)) (hc : w1.cells[b1.data]? = some (.free g)) (hu : Holds S g u) :
    ∃ b2 w2, Buf.execAll S A f w1 b1 [.setCallback false, .undo] = .ok (b2, w2) ∧
      Buf.text w2 b2 = .ok (deleteRange S.segs u b.cursor.at_.position (putEnd S.segs s b.cursor.at_.position), w2) := by
  simp only [Buf.exec, Buf.insert, Buf.runOp] at h
  obtain ⟨⟨b', op, w'⟩, h1, h2⟩ : ∃ x : Buf ξ × SOp × World ξ, (do
      let w ← withWrite w b.data fun g w => do return (← g.insert S A s b.cursor.at_.position, w)
      let w ← Buf.report w b b.cursor.at_.position
      Except.ok (b, SOp.insert s b.cursor.at_.position, w)) = .ok x ∧ (Except.ok (x.1.store x.2.1, x.2.2) : R _) = .ok (b1, w1) := by
    cases hx : (do
      let w ← withWrite w b.data fun g w => do return (← g.insert S A s b.cursor.at_.position, w)
      let w ← Buf.report w b b.cursor.at_.position
      Except.ok (b, SOp.insert s b.cursor.at_.position, w) : R (Buf ξ × SOp × World ξ)) with
    | error e => rw [hx] at h; cases h
    | ok x => rw [hx] at h; exact ⟨x, rfl, h⟩
  have h3 : b' = b ∧ op = .insert s b.cursor.at_.position := by
    cases ha : withWrite w b.data fun g w => (do return (← g.insert S A s b.cursor.at_.position, w) : R _) with
    | error e => rw [ha] at h1; cases h1
    | ok wa =>
      rw [ha] at h1
      simp only [Except.ok_bind'] at h1
      cases hb : Buf.report wa b b.cursor.at_.position with
      | error e => rw [hb] at h1; cases h1
      | ok wb => rw [hb] at h1; cases h1; exact ⟨rfl, rfl⟩
  obtain ⟨rfl, rfl⟩ := h3
  cases h2
  have hd : (Buf.store b' (.insert s b'.cursor.at_.position)).data = b'.data := by simp only [Buf.store, hg]
  rw [hd] at hc
  dsimp only at hc
  have hle : AtOrBefore b'.cursor.at_.position (putEnd S.segs s b'.cursor.at_.position) := by
    unfold putEnd AtOrBefore
    split
    · exact Or.inr ⟨rfl, Nat.le_add_right _ _⟩
    · exact Or.inl (by dsimp only; omega)
  have hr : Range.new b'.cursor.at_.position (putEnd S.segs s b'.cursor.at_.position) = ⟨b'.cursor.at_.position, putEnd S.segs s b'.cursor.at_.position⟩ := range_new_of_le hle
  obtain ⟨g', d1, d2, -⟩ := hu.delete (Range.new b'.cursor.at_.position (putEnd S.segs s b'.cursor.at_.position)) (by rw [hr]; exact hle)
  rw [hr] at d2
  refine ⟨{ b' with history := (b'.history.add (.simple (.insert s b'.cursor.at_.position))).back.2, callback := none }, w'.set b'.data (.free g'), ?_, ?_⟩
  · simp only [Buf.execAll, Buf.exec, Except.ok_bind', Buf.store, hg, Buf.undo, History.add, History.back, Buf.reverseAny, Buf.reverseOp,
      insertEnd_putEnd, withWrite_pure hc, d1, Buf.report]
    rfl
  · have hl : b'.data < w'.cells.length := (List.getElem?_eq_some_iff.mp hc).1
    have hc' : (w'.set b'.data (.free g')).cells[b'.data]? = some (.free g') := by simp [World.set, hl]
    exact (withRead_pure hc' rfl (fun g => g.toStr) id).trans (by rw [show (Cell.free g').value = g' from rfl, d2]; rfl)

/-- **C66.** A change callback that puts a string before every insertion at the start of the text: after one insertion and its undo, the clusters that are gone
are the first ones of the text, as many as were inserted; the contents are not what they were. -/
theorem C66_not_undone (S : Segmenter) (P : Text → Prop) (hP : Closed S.segs P) (A : Alloc) (k : Nat) (t s r : Text) (ht : Over S.segs P t) (hs : Over S.segs P s)
    (hr : Over S.segs P r) (hsn : '\n' ∉ s) (hrn : '\n' ∉ r) :
    ∃ b w, Buf.execAll S A (meddle S A r) (Buf.fromContent A ⟨[], ()⟩ k t).2 (Buf.fromContent A ⟨[], ()⟩ k t).1
        [.setCallback true, .insert s, .setCallback false, .undo] = .ok (b, w) ∧
      Buf.text w b = .ok (((S.segs (r ++ s ++ t)).drop (S.segs s).length).flatten, w) ∧
      (r ≠ [] → ((S.segs (r ++ s ++ t)).drop (S.segs s).length).flatten ≠ t) := by
  have hst : Over S.segs P (s ++ t) := by
    intro c hc
    rw [over_append hP hs ht] at hc
    exact (List.mem_append.mp hc).elim (hs c) (ht c)
  have s1 : S.segs (r ++ (s ++ t)) = S.segs r ++ S.segs (s ++ t) := over_append hP hr hst
  have s2 : S.segs (r ++ s ++ t) = S.segs r ++ S.segs s ++ S.segs t := by rw [List.append_assoc, s1, over_append hP hs ht, List.append_assoc]
  have loc0 : ∀ cs : List Text, locate cs ⟨0, 0⟩ = some ([], cs) := fun cs => locate_eq_some.mpr ⟨rfl, rfl⟩
  have ins : ∀ x y : Text, insertAt S.segs x y ⟨0, 0⟩ = y ++ x := by
    intro x y
    unfold insertAt
    rw [loc0]
    simp [S.join]
  obtain ⟨g1, i1, -, i3⟩ := (GapBuffer.holds_new (S := S) (A := A) k t).insert (A := A) s ⟨0, 0⟩
  obtain ⟨g2, j1, -, j3⟩ := (i3 (over_cleanInsert hP _ ht hs)).insert (A := A) r ⟨0, 0⟩
  have j4 := j3 (over_cleanInsert hP _ (by rw [ins]; exact hst) hr)
  rw [ins, ins, ← List.append_assoc] at j4
  let b0 : Buf Unit := ⟨0, Cur.new 0 ⟨0, 0⟩, History.new.setMark, none, some (meddle S A r)⟩
  have e1 : Buf.exec S A (meddle S A r) ⟨[.free (GapBuffer.new A k t)], ()⟩ b0 (.insert s) =
      .ok (b0.store (.insert s ⟨0, 0⟩), ⟨[.free g2], ()⟩) := by
    have k1 : (⟨[.free (GapBuffer.new A k t)], ()⟩ : World Unit).cells[(0 : Nat)]? = some (.free (GapBuffer.new A k t)) := rfl
    have k2 : (⟨[.free g1], ()⟩ : World Unit).cells[(0 : Nat)]? = some (.free g1) := rfl
    have m1 : withWrite (⟨[.free (GapBuffer.new A k t)], ()⟩ : World Unit) 0 (fun g w => do return (← g.insert S A s ⟨0, 0⟩, w)) = .ok ⟨[.free g1], ()⟩ := by
      rw [withWrite_pure k1, i1]; rfl
    have m2 : withWrite (⟨[.free g1], ()⟩ : World Unit) 0 (fun g w => do return (← g.insert S A r ⟨0, 0⟩, w)) = .ok ⟨[.free g2], ()⟩ := by
      rw [withWrite_pure k2, j1]; rfl
    have m3 : Buf.report (⟨[.free g1], ()⟩ : World Unit) b0 ⟨0, 0⟩ = .ok ⟨[.free g2], ()⟩ := m2
    simp only [Buf.exec, Buf.insert, Buf.runOp]
    change ((withWrite (⟨[.free (GapBuffer.new A k t)], ()⟩ : World Unit) 0 (fun g w => do return (← g.insert S A s ⟨0, 0⟩, w)) >>= fun w =>
      Buf.report w b0 ⟨0, 0⟩ >>= fun w => Except.ok (b0, SOp.insert s ⟨0, 0⟩, w)) >>= _) = _
    rw [m1]
    change (Buf.report (⟨[.free g1], ()⟩ : World Unit) b0 ⟨0, 0⟩ >>= fun w => Except.ok (b0, SOp.insert s ⟨0, 0⟩, w)) >>= _ = _
    rw [m3]
    rfl
  obtain ⟨b2, w2, h1, h2⟩ := C66_undo_takes_range S A (meddle S A r) _ _ b0 _ s _ g2 rfl e1 rfl j4
  refine ⟨b2, w2, ?_, ?_, ?_⟩
  · change (Buf.exec S A (meddle S A r) ⟨[.free (GapBuffer.new A k t)], ()⟩ b0 (.insert s) >>= fun x => Buf.execAll S A (meddle S A r) x.2 x.1 [.setCallback false, .undo]) = _
    rw [e1]
    exact h1
  · rw [h2]
    congr 2
    have hp : putEnd S.segs s b0.cursor.at_.position = ⟨0, (S.segs s).length⟩ := by
      have : countNl s = 0 := countNl_zero hsn
      unfold putEnd
      rw [if_pos this]
      exact congrArg (Position.mk 0) (Nat.zero_add _)
    rw [hp]
    change deleteRange S.segs (r ++ s ++ t) ⟨0, 0⟩ ⟨0, (S.segs s).length⟩ = _
    have nl : ['\n'] ∉ (S.segs (r ++ s ++ t)).take (S.segs s).length := by
      intro h
      rw [s2, List.take_append_of_le_length (by simp)] at h
      have hm := List.mem_of_mem_take h
      rcases List.mem_append.mp hm with h | h
      · exact hrn (by rw [← S.join r]; exact List.mem_flatten.mpr ⟨_, h, List.mem_singleton.mpr rfl⟩)
      · exact hsn (by rw [← S.join s]; exact List.mem_flatten.mpr ⟨_, h, List.mem_singleton.mpr rfl⟩)
    have hl : locate (S.segs (r ++ s ++ t)) ⟨0, (S.segs s).length⟩ =
        some ((S.segs (r ++ s ++ t)).take (S.segs s).length, (S.segs (r ++ s ++ t)).drop (S.segs s).length) := by
      refine locate_eq_some.mpr ⟨(List.take_append_drop _ _).symm, ?_⟩
      rw [endPos_line_zero nl, List.length_take, Nat.min_eq_left (by rw [s2]; simp; omega)]
    unfold deleteRange afterEnd
    rw [loc0, hl]
    rfl
  · intro hne he
    have hov : ∀ c ∈ (S.segs (r ++ s ++ t)).drop (S.segs s).length, P c := by
      intro c hc
      have := List.mem_of_mem_drop hc
      rw [s2] at this
      rcases List.mem_append.mp this with h | h
      · exact (List.mem_append.mp h).elim (hr c) (hs c)
      · exact ht c h
    have h3 := hP.apart _ hov
    rw [he] at h3
    have h4 := congrArg List.length h3
    rw [List.length_drop, s2] at h4
    simp only [List.length_append] at h4
    have h5 : (S.segs r).length = 0 := by omega
    apply hne
    rw [← S.join r, List.length_eq_zero_iff.mp h5]
    rfl

/-- For example with letters, for which any set of characters is closed (C49). -/
example : ((Buf.execAll Demo.seg Demo.tight (meddle Demo.seg Demo.tight (Demo.s "!?")) (Buf.fromContent Demo.tight ⟨[], ()⟩ 0 (Demo.s "ab")).2
    (Buf.fromContent Demo.tight ⟨[], ()⟩ 0 (Demo.s "ab")).1 [.setCallback true, .insert (Demo.s "c"), .setCallback false, .undo] >>=
      fun r => Buf.text r.2 r.1).map (·.1)) = .ok (Demo.s "?cab") := by
  decide +kernel

end Scribe.Shared
