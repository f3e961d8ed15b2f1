import Verif.Oracle.Direct
import Verif.Oracle.SoundShared
import Verif.Props.Direct
/-! The executable forms of C84 hold. -/
namespace Scribe.Oracle
open Props Shared
variable {S : Segmenter} {A : Alloc}

theorem idleB_iff {w : World Diary} : idleB w = true ↔ Idle w := idle_iff

theorem notMove {c : Scribe.Buf.Cmd} (h : isMove c = false) : ∀ m, c ≠ .move m := by
  rintro m rfl; cases h

theorem freeOf {w : World Diary} {p : Nat} {k : Cell} (hi : Idle w) (h : w.cells[p]? = some k) : w.cells[p]? = some (.free k.value) := by
  obtain ⟨h1, h2⟩ := hi k (List.mem_of_getElem? h)
  rw [h]; cases k; simp_all [Cell.free]

theorem s_C84_no_panic (xs : List (Shared.Act Diary)) (hx : ∀ x ∈ xs, x.Behaves) (i : Nat) (m : Cursor.Move) : o_C84_no_panic S A xs i m = true := by
  obtain ⟨bs, w, h1, h2, h3⟩ := C84_no_panic S A xs hx []
  simp only [o_C84_no_panic, okAnd_iff, Bool.and_eq_true, someImp_iff, someAnd_iff, decide_eq_true_eq]
  refine ⟨_, h1, idleB_iff.mpr h2.1, fun b hb => ?_⟩
  obtain ⟨⟨g, t, k0, k4, k1⟩, k2⟩ := h3 b (List.mem_of_getElem? hb)
  obtain ⟨b', k3⟩ := k2 m diary
  exact ⟨⟨_, k1, sameWorld_refl _, _, k0, k4⟩, _, k3, sameWorld_refl _⟩

theorem s_C84_edits (w : World Diary) (b : Shared.Buf Diary) (hcb : b.callback = none ∨ b.callback = some diary) (c : Scribe.Buf.Cmd) (q : Nat) :
    o_C84_edits_own_text S A w b c q = true := by
  simp only [o_C84_edits_own_text, imp_iff, someImp_iff, okImp_iff, okAnd_iff, Bool.and_eq_true, Bool.or_eq_true, decide_eq_true_eq]
  intro hi hc k hk a' ha
  obtain ⟨b', w', h1, h2, h3, h4, h5, h6, h7⟩ := C84_edits_own_text S A diary _ diary_looks w b k.value c a' (idleB_iff.mp hi) (freeOf (idleB_iff.mp hi) hk) hcb (notMove hc) ha
  exact ⟨_, h1, ⟨⟨⟨⟨h2, h3⟩, h4⟩, h5⟩, fun hq => h6 q hq.1 hq.2⟩, h7⟩

theorem s_C84_moves (w : World Diary) (b : Shared.Buf Diary) (m : Cursor.Move) : o_C84_moves_cursor_text S A w b m = true := by
  simp only [o_C84_moves_cursor_text, imp_iff, someImp_iff]
  intro hi k hk
  rw [C84_moves_cursor_text S diary A w b k.value m (freeOf (idleB_iff.mp hi) hk)]
  cases Cursor.move S k.value b.cursor.at_ m with
  | error e => simp [bind, Except.bind]
  | ok a => simp [bind, Except.bind]

theorem s_C84_replace (w : World Diary) (b : Shared.Buf Diary) (t : Text) : o_C84_replace_reattaches S A w b t = true := by
  simp only [o_C84_replace_reattaches, imp_iff, okImp_iff, Bool.and_eq_true, decide_eq_true_eq]
  rintro hi ⟨old, w1⟩ ho hne ⟨b', w'⟩ h
  have : w1 = w := by
    unfold Shared.Buf.text at ho
    cases hk : w.cells[b.data]? with
    | none => simp [withRead, World.get, hk, bind, Except.bind] at ho
    | some k =>
      have := withRead_pure (freeOf (idleB_iff.mp hi) hk) rfl (fun g => g.toStr) id
      simp only [id] at this
      rw [this] at ho
      generalize GapBuffer.toStr _ = y at ho
      cases y with
      | error e => cases ho
      | ok y => cases ho; rfl
  subst this
  exact C84_replace_reattaches S A diary w1 w' b b' old t ho hne h

theorem s_C84_history (w : World Diary) (bs : List (Shared.Buf Diary)) (xs : List (Shared.Act Diary)) (i : Nat) : o_C84_history_spared S A w bs xs i = true := by
  simp only [o_C84_history_spared, imp_iff, someImp_iff, okImp_iff, List.all_eq_true]
  rintro hx b hb ⟨bs', w'⟩ h
  obtain ⟨b', h1, h2, h3, h4⟩ := C84_history_spared S A xs w w' bs bs' i b (fun x k => by
    have := hx x k; cases x <;> simp_all [sparesB, Shared.Act.Spares]) hb h
  simp only [h1, h2, h3, h4, decide_true, Bool.and_self]

theorem s_C84_bookkeeping (xs : List (Shared.Act Diary)) (hx : ∀ x ∈ xs, x.Behaves) (i : Nat) (c : Scribe.Buf.Cmd) : o_C84_bookkeeping S A xs i c = true := by
  simp only [o_C84_bookkeeping, imp_iff, someImp_iff, okImp_iff]
  rintro hc ⟨bs, w⟩ hr b hb hcb
  obtain ⟨g, t, a', b', w', h1, h2, h3, h4, h5, h6, h7⟩ := C84_bookkeeping S A diary _ diary_looks xs hx [] bs w hr b (List.mem_of_getElem? hb)
    (.inl (by simpa using hcb)) c (notMove hc)
  rw [h1]
  simp only [okAnd_iff, Bool.and_eq_true, decide_eq_true_eq]
  exact ⟨t, h2, a', h3, _, h4, ⟨h5, h6⟩, h7⟩

end Scribe.Oracle
