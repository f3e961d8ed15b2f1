import Verif.Spec.Counts
import Verif.Props.Buffer
/-!
# Properties C56, C57: the bookkeeping does not depend on the text
-/
namespace Scribe.Props
open Spec Buf

theorem counts_store (b b1 : Buf) (op : SOp) (h1 : b1.group = b.group) (h2 : b1.history = b.history) :
    counts (store b1 op) = (counts b).edit := by
  unfold store counts Counts.edit
  cases hg : b.group with
  | some ops => rw [h1, hg]; simp [h2]
  | none =>
    rw [h1, hg]
    simp only [Option.map_none, Counts.push, History.add, h2, List.length_cons, List.length_nil]
    cases b.history.mark with
    | none => rfl
    | some m =>
      simp only [Option.filter_some, decide_eq_true_eq]
      by_cases h : m ≤ b.history.previous.length
      · rw [if_neg (by omega), if_pos h]
      · rw [if_pos (by omega), if_neg h]

theorem runAll_keeps {S A} {ops : List SOp} {b b' : Buf} (h : runAll S A b ops = .ok b') :
    b'.group = b.group ∧ b'.history = b.history := by
  induction ops generalizing b with
  | nil => cases h; exact ⟨rfl, rfl⟩
  | cons op ops ih =>
    simp only [runAll] at h
    cases h1 : runOp S A b op with
    | error e => rw [h1] at h; cases h
    | ok r =>
      rw [h1] at h
      obtain ⟨k1, k2⟩ := ih (b := r.1) h
      obtain ⟨l1, l2⟩ := runOp_keeps (b' := r.1) (op' := r.2) h1
      exact ⟨k1.trans l1, k2.trans l2⟩

theorem runAny_keeps {S A} {op : Op} {b b' : Buf} (h : runAny S A b op = .ok b') : b'.group = b.group ∧ b'.history = b.history := by
  cases op with
  | simple op =>
    simp only [runAny] at h
    cases h1 : runOp S A b op with
    | error e => rw [h1] at h; cases h
    | ok r => rw [h1] at h; cases h; exact runOp_keeps (op' := r.2) h1
  | group ops => exact runAll_keeps h

theorem reverseAny_keeps {S A} {op : Op} {b b' : Buf} (h : reverseAny S A b op = .ok b') : b'.group = b.group ∧ b'.history = b.history := by
  cases op with
  | simple op => exact reverseOp_keeps h
  | group ops => exact reverseAll_keeps h

theorem counts_congr {b b' : Buf} (h : b'.group = b.group ∧ b'.history = b.history) : counts b' = counts b := by
  unfold counts; rw [h.1, h.2]

theorem counts_pop {S A} {b b' : Buf} (h : (match b.history.back.1 with
      | some op => reverseAny S A { b with group := none, history := b.history.back.2 } op
      | none => Except.ok { b with group := none, history := b.history.back.2 }) = .ok b') :
    counts b' = if (counts b).undo = 0 then { counts b with group := none }
      else { counts b with group := none, undo := (counts b).undo - 1, redo := (counts b).redo + 1 } := by
  unfold History.back at h
  cases hp : b.history.previous with
  | nil => rw [hp] at h; cases h; simp [counts, hp]
  | cons op ops =>
    rw [hp] at h
    rw [counts_congr (reverseAny_keeps h)]
    simp [counts, hp]

/-- **C56.** In every state, clean or not, every call changes the numbers of undoable and redoable steps, the saved mark and the open group
exactly as `Counts.step` says, whatever the texts, positions, allocator and segmentation; and `modified` is a function of these numbers. -/
theorem C56_bookkeeping (S : Segmenter) (A : Alloc) (b b' : Buf) (c : Cmd) (t : Text) (ht : b.data.toStr = .ok t)
    (h : exec S A b c = .ok b') :
    counts b' = (counts b).step (SameText t c) c ∧ b.modified = !(counts b).unmodified := by
  constructor
  · have hedit : Edits t c → (∀ x, c ≠ .reload x) → counts b' = (counts b).edit := by
      intro he hr
      obtain ⟨b1, op, h1, h2, rfl⟩ := edit_stores ht he hr h
      exact counts_store b b1 op h1 h2
    cases c with
    | insert s => exact hedit trivial (fun x hx => by cases hx)
    | delete => exact hedit trivial (fun x hx => by cases hx)
    | deleteRange p q => exact hedit trivial (fun x hx => by cases hx)
    | replace x =>
      by_cases hx : x = t
      · simp only [exec, replace, ht, Except.ok_bind', if_pos hx] at h
        cases h
        simp [Counts.step, SameText, hx]
      · rw [hedit hx (fun x hx => by cases hx)]
        simp [Counts.step, SameText, hx]
    | reload x =>
      simp only [exec, reloadWith] at h
      cases h1 : replace S A b x with
      | error e => rw [h1] at h; cases h
      | ok b1 =>
        rw [h1] at h
        cases h
        have hc : counts b1 = if decide (x = t) then counts b else (counts b).edit := by
          by_cases hx : x = t
          · simp only [replace, ht, Except.ok_bind', if_pos hx] at h1
            cases h1
            simp [hx]
          · obtain ⟨b2, op, k1, k2, rfl⟩ := edit_stores (c := .replace x) ht hx (fun x hx => by cases hx) h1
            rw [counts_store b b2 op k1 k2]; simp [hx]
        have hc' : (if SameText t (.reload x) then counts b else (counts b).edit) = counts b1 := hc.symm
        simp only [Counts.step]
        rw [hc']
        rfl
    | undo =>
      simp only [exec, undo] at h
      cases hg : b.group with
      | none =>
        rw [hg] at h
        rw [counts_pop h]
        simp [Counts.step, counts, hg]
      | some ops =>
        rw [hg] at h
        simp only at h
        cases ops with
        | nil =>
          simp only [List.isEmpty_nil, if_true] at h
          rw [counts_pop h]
          simp [Counts.step, counts, hg]
        | cons op ops =>
          simp only [List.isEmpty_cons] at h
          rw [counts_congr (reverseAny_keeps (op := .group (op :: ops)) h)]
          simp [Counts.step, counts, hg]
    | redo =>
      simp only [exec, redo, History.forth] at h
      cases hn : b.history.next with
      | nil => rw [hn] at h; cases h; simp [Counts.step, counts, hn]
      | cons op ops =>
        rw [hn] at h
        rw [counts_congr (runAny_keeps (op := op) h)]
        simp [Counts.step, counts, hn]
    | startGroup =>
      cases h
      unfold startGroup
      cases hg : b.group with
      | none => simp [Counts.step, counts, hg]
      | some ops => simp [Counts.step, counts, hg]
    | endGroup =>
      cases h
      unfold endGroup
      cases hg : b.group with
      | none => simp [Counts.step, counts, hg]
      | some ops =>
        cases ops with
        | nil => simp [Counts.step, counts, hg]
        | cons op ops =>
          simp only [List.isEmpty_cons, Counts.step, counts, hg, Counts.push, History.add, Option.map_some, Option.getD_some, List.length_cons]
          cases b.history.mark with
          | none => simp
          | some m =>
            by_cases hm : m ≤ b.history.previous.length
            · simp [Nat.not_le.mpr (Nat.lt_succ_of_le hm), Option.filter_some, hm]
            · simp [Nat.succ_le_of_lt (Nat.lt_of_not_le hm), Option.filter_some, hm]
    | move m =>
      simp only [exec] at h
      cases h1 : Cursor.move S b.data b.cursor m with
      | error e => rw [h1] at h; cases h
      | ok cu => rw [h1] at h; cases h; rfl
    | setCursor p => cases h; rfl
    | setCallback v => cases h; rfl
    | saved => cases h; rfl
  · unfold modified History.atMark Counts.unmodified counts
    cases b.history.mark with
    | none => rfl
    | some m => simp only [Option.some_beq_some]; rw [Bool.beq_comm]

/-- A run mixing everything; the numbers at the end. -/
example : ((execAll Demo.seg Demo.tight (Buf.fromContent Demo.tight 0 (Demo.s "xyz"))
    [.insert (Demo.s "a"), .saved, .insert (Demo.s "\r\n"), .startGroup, .delete, .deleteRange ⟨0, 0⟩ ⟨9, 9⟩, .endGroup, .undo, .undo, .startGroup, .delete]).map counts) =
    .ok ⟨1, 2, some 1, some 1⟩ := by decide +kernel

theorem counts_edits {S : Segmenter} {A : Alloc} (es : List Cmd) {b : Buf}
    (he : ∀ x c y b' t, es = x ++ c :: y → execAll S A b x = .ok b' → b'.data.toStr = .ok t → Edits t c ∧ ∀ z, c ≠ .reload z) (hs : Sane b) (hg : (counts b).group = none) (m : Nat) (hm : (counts b).mark = some m) (hle : m ≤ (counts b).undo) :
    ∃ b', execAll S A b es = .ok b' ∧ Sane b' ∧ (counts b').undo = (counts b).undo + es.length ∧ (counts b').mark = some m ∧ (counts b').group = none := by
  induction es generalizing b with
  | nil => exact ⟨b, rfl, hs, rfl, hm, hg⟩
  | cons c es ih =>
    obtain ⟨b1, e1, s1⟩ := exec_safe (S := S) (A := A) hs c
    obtain ⟨t, ht⟩ := hs.toStr
    have hk := (C56_bookkeeping S A b b1 c t ht e1).1
    have hk' : counts b1 = (counts b).push := by
      have : (counts b).step (SameText t c) c = (counts b).edit := by
        obtain ⟨h1, h2⟩ := he [] c es b t rfl rfl ht
        cases c with
        | insert _ | delete | deleteRange _ _ => rfl
        | replace x =>
          have h1 : x ≠ t := h1
          have : SameText t (.replace x) = false := by simpa [SameText, eq_comm] using h1
          simp [Counts.step, this]
        | reload x => exact absurd rfl (h2 x)
        | _ => cases h1
      rw [hk, this, Counts.edit, hg]
    have hm1 : (counts b1).mark = some m := by rw [hk', Counts.push]; simp [hm, Option.filter_some, hle]
    have hu1 : (counts b1).undo = (counts b).undo + 1 := by rw [hk', Counts.push]
    have hg1 : (counts b1).group = none := by rw [hk', Counts.push]; exact hg
    obtain ⟨b2, e2, s2, k1, k2, k3⟩ := ih (fun x d y b' t' h1 h2 h3 => he (c :: x) d y b' t' (by rw [h1]; rfl) (by simp only [execAll, e1, Except.ok_bind', h2]) h3) s1 hg1 hm1 (by omega)
    exact ⟨b2, by simp only [execAll, e1, Except.ok_bind', e2], s2, by rw [k1, hu1, List.length_cons]; omega, k2, k3⟩

theorem counts_undos {S : Segmenter} {A : Alloc} (i : Nat) {b : Buf} (hs : Sane b) (hg : (counts b).group = none) (hi : i ≤ (counts b).undo) :
    ∃ b', execAll S A b (List.replicate i .undo) = .ok b' ∧ (counts b').undo = (counts b).undo - i ∧ (counts b').mark = (counts b).mark := by
  induction i generalizing b with
  | zero => exact ⟨b, rfl, rfl, rfl⟩
  | succ i ih =>
    obtain ⟨b1, e1, s1⟩ := exec_safe (S := S) (A := A) hs .undo
    obtain ⟨t, ht⟩ := hs.toStr
    have hk := (C56_bookkeeping S A b b1 .undo t ht e1).1
    simp only [Counts.step, hg, Option.getD_none, ne_eq, not_true_eq_false, if_false, if_neg (show ¬ (counts b).undo = 0 by omega)] at hk
    obtain ⟨b2, e2, k1, k2⟩ := ih s1 (by rw [hk]) (by rw [hk]; simp only; omega)
    refine ⟨b2, by simp only [List.replicate_succ, execAll, e1, Except.ok_bind', e2], ?_, ?_⟩
    · rw [k1, hk]; simp only; omega
    · rw [k2, hk]

/-- **C19.** In every state, clean or not, without an open group: after a save and any edits (insertions, deletions, and replacements by other contents than
there are at the time), undoing some of them makes the buffer unmodified exactly if all have been undone. -/
theorem C19_edits_undone (S : Segmenter) (A : Alloc) (b0 b : Buf) (d0 : Doc) (t0 : Text) (cs es : List Cmd) (i : Nat) (h0 : Start A b0 d0 t0)
    (h : execAll S A b0 cs = .ok b) (hg : b.group = none)
    (he : ∀ x c y b' t, es = x ++ c :: y → execAll S A b (.saved :: x) = .ok b' → b'.data.toStr = .ok t → Edits t c ∧ ∀ z, c ≠ .reload z) (hi : i ≤ es.length) :
    ∃ b', execAll S A b (.saved :: (es ++ List.replicate i .undo)) = .ok b' ∧ (b'.modified = false ↔ i = es.length) := by
  have hs : Sane b := by
    have hs0 : Sane b0 := by
      cases h0 with
      | new k => exact sane_new k
      | load k t => exact sane_fromContent k t0
    obtain ⟨b', h', hs'⟩ := execAll_safe (S := S) (A := A) cs hs0
    rw [h] at h'
    cases h'
    exact hs'
  obtain ⟨b1, e1, s1⟩ := exec_safe (S := S) (A := A) hs .saved
  have hk : counts b1 = { counts b with mark := some (counts b).undo } := by cases e1; rfl
  obtain ⟨b2, e2, s2, u2, m2, g2⟩ := counts_edits (S := S) (A := A) es
    (fun x c y b' t h1 h2 h3 => he x c y b' t h1 (by simp only [execAll, e1, Except.ok_bind', h2]) h3) s1 (by rw [hk]; simp [counts, hg]) (counts b).undo (by rw [hk]) (by rw [hk]; exact Nat.le_refl _)
  obtain ⟨b3, e3, u3, m3⟩ := counts_undos (S := S) (A := A) i s2 g2 (by rw [u2]; omega)
  refine ⟨b3, ?_, ?_⟩
  · simp only [execAll, e1, Except.ok_bind']
    rw [execAll_append e2, e3]
  · have hmod : b3.modified = !(counts b3).unmodified := by
      unfold modified History.atMark Counts.unmodified counts
      cases b3.history.mark with
      | none => rfl
      | some m => simp only [Option.some_beq_some]; rw [Bool.beq_comm]
    rw [hmod, Counts.unmodified, m3, m2, u3, u2, hk]
    simp only [Option.some_beq_some, Bool.not_eq_false', beq_iff_eq]
    omega

/-- Edits that merge clusters and delete beyond the text, all undone; and not all undone. -/
example : (execAll Demo.seg Demo.tight (Buf.fromContent Demo.tight 0 (Demo.s "ab"))
    [.saved, .insert (Demo.s "\r"), .insert (Demo.s "\n"), .deleteRange ⟨0, 0⟩ ⟨9, 9⟩, .replace (Demo.s "x"), .undo, .undo, .undo, .undo] >>= fun b => .ok b.modified) = .ok false ∧
    (execAll Demo.seg Demo.tight (Buf.fromContent Demo.tight 0 (Demo.s "ab"))
    [.saved, .insert (Demo.s "\r"), .insert (Demo.s "\n"), .deleteRange ⟨0, 0⟩ ⟨9, 9⟩, .replace (Demo.s "x"), .undo, .undo, .undo] >>= fun b => .ok b.modified) = .ok true := by decide +kernel

/-- **C57.** A buffer made with `Buffer::new()` reports being modified until it is first saved (or reloaded), even when nothing has been
done to it or everything has been undone: the history marked in `Default` is thrown away. -/
theorem C57_new_buffer_modified (S : Segmenter) (A : Alloc) (k : Nat) (cs : List Cmd) (b : Buf)
    (hc : ∀ c ∈ cs, c ≠ .saved ∧ ∀ x, c ≠ .reload x) (h : execAll S A (Buf.new A k) cs = .ok b) : b.modified = true := by
  have key : ∀ (cs : List Cmd) (b0 : Buf), Sane b0 → b0.history.mark = none → (∀ c ∈ cs, c ≠ .saved ∧ ∀ x, c ≠ .reload x) →
      execAll S A b0 cs = .ok b → b.history.mark = none := by
    intro cs
    induction cs with
    | nil => intro b0 _ hm _ h; cases h; exact hm
    | cons c cs ih =>
      intro b0 hs hm hc h
      obtain ⟨b1, e1, s1⟩ := exec_safe (S := S) (A := A) hs c
      simp only [execAll, e1, Except.ok_bind'] at h
      obtain ⟨t, ht⟩ := hs.toStr
      refine ih b1 s1 ?_ (fun x hx => hc x (by simp [hx])) h
      have hk := (C56_bookkeeping S A b0 b1 c t ht e1).1
      have hmk : b1.history.mark = ((counts b0).step (SameText t c) c).mark := by rw [← hk]; rfl
      have hcm : (counts b0).mark = none := hm
      rw [hmk]
      have hed : (counts b0).edit.mark = none := by
        unfold Counts.edit Counts.push; split <;> simp [hcm]
      obtain ⟨hns, hnr⟩ := hc c (by simp)
      cases c with
      | insert s => exact hed
      | delete => exact hed
      | deleteRange p q => exact hed
      | replace x => simp only [Counts.step]; split <;> assumption
      | reload x => exact absurd rfl (hnr x)
      | saved => exact absurd rfl hns
      | undo => simp only [Counts.step]; split; exact hcm; split <;> exact hcm
      | redo => simp only [Counts.step]; split <;> exact hcm
      | startGroup => exact hcm
      | endGroup =>
        simp only [Counts.step]
        split
        · exact hcm
        · simp [Counts.push, hcm]
      | _ => exact hcm
  have := key cs _ (sane_new (A := A) k) rfl hc h
  unfold modified History.atMark; rw [this]; rfl

example : (Buf.new Demo.tight 0).modified = true := by decide +kernel
example : (execAll Demo.seg Demo.tight (Buf.new Demo.tight 0) [.insert (Demo.s "a"), .undo] >>= fun b => .ok b.modified) = .ok true := by decide +kernel
example : (execAll Demo.seg Demo.tight (Buf.new Demo.tight 0) [.insert (Demo.s "a"), .saved] >>= fun b => .ok b.modified) = .ok false := by decide +kernel

end Scribe.Props
