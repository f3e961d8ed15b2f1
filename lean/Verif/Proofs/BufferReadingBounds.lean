import Verif.Proofs.BufferReading
/-! # Bounds for what the calls of a buffer read -/
namespace Scribe
open Spec Buf GapBuffer
variable {S : Segmenter} {A : Alloc}

/-- Both counters. -/
def Effort.AtMost (e : Effort) (n : Nat) : Prop := e.decoded ≤ n ∧ e.visited ≤ n

theorem Effort.AtMost.add {a b : Effort} {m n : Nat} (ha : a.AtMost m) (hb : b.AtMost n) : (a + b).AtMost (m + n) :=
  ⟨Nat.add_le_add ha.1 hb.1, Nat.add_le_add ha.2 hb.2⟩

theorem Effort.AtMost.mono {a : Effort} {m n : Nat} (ha : a.AtMost m) (h : m ≤ n) : a.AtMost n := ⟨Nat.le_trans ha.1 h, Nat.le_trans ha.2 h⟩

theorem nothing_atMost (n : Nat) : nothing.AtMost n := ⟨Nat.zero_le _, Nat.zero_le _⟩

theorem bytes_text (z : Zip) : blen z.text = blen z.left + blen z.right := blen_append _ _

theorem lookup_atMost (z : Zip) (p : Position) : (z.lookup S.segs p).AtMost (blen z.text) := by
  rw [bytes_text]; exact GapBuffer.lookup_le z p

theorem whole_atMost (z : Zip) : z.whole.AtMost (blen z.text) := ⟨by rw [bytes_text]; exact Nat.le_refl _, Nat.zero_le _⟩

theorem effort_atMost (z : Zip) (c : Call) : (z.effort S.segs A.grant c).AtMost (3 * blen z.text) := by
  rw [bytes_text]; exact GapBuffer.effort_le z c

theorem insert_atMost (z : Zip) (s : Text) (p : Position) : (z.effort S.segs A.grant (.insert s p)).AtMost (blen z.text) := by
  have := lookup_atMost (S := S) (z.reserve A.grant (blen s)) p
  rw [bytes_text, GapBuffer.reserve_bytes, ← bytes_text] at this
  exact this

theorem overLine_atMost (z : Zip) (c : Cursor) (l : Nat) : (z.overLine S.segs c l).AtMost (3 * blen z.text) := by
  unfold Zip.overLine
  split
  · exact (lookup_atMost z _).mono (by omega)
  · exact (((lookup_atMost z _).add (whole_atMost z)).add (lookup_atMost z _)).mono (by omega)

theorem moving_atMost (z : Zip) (c : Cursor) (m : Cursor.Move) : (z.moving S.segs c m).AtMost (3 * blen z.text) := by
  cases m with
  | up => simp only [Zip.moving]; split; exact nothing_atMost _; exact overLine_atMost z _ _
  | down => exact overLine_atMost z _ _
  | left => simp only [Zip.moving]; split; exact nothing_atMost _; exact (lookup_atMost z _).mono (by omega)
  | endOfLine => simp only [Zip.moving]; split; exact ((whole_atMost z).add (lookup_atMost z _)).mono (by omega); exact (whole_atMost z).mono (by omega)
  | lastLine => exact ((whole_atMost z).add (lookup_atMost z _)).mono (by omega)
  | firstLine => exact ((whole_atMost z).add (lookup_atMost z _)).mono (by omega)
  | _ => exact (lookup_atMost z _).mono (by omega)

theorem swapping_atMost (d : ZDoc) (t : Text) : (d.swapping S.segs A.grant t).AtMost (2 * blen t) := by
  have e : ∀ k, blen (Zip.fresh A.grant k t).text = blen t := fun k => by simp [Zip.fresh, Zip.text]
  unfold ZDoc.swapping
  dsimp only
  split
  · exact (lookup_atMost _ _).mono (by rw [e]; omega)
  · exact ((lookup_atMost _ _).add (lookup_atMost _ _)).mono (by rw [e]; omega)

theorem performing_atMost (d : ZDoc) (r : Recipe) : (d.performing S.segs A.grant r).AtMost (6 * (blen d.zip.text + r.bytes)) := by
  cases r with
  | put s p => exact (insert_atMost d.zip s p).mono (by omega)
  | cut o p q => exact ((effort_atMost d.zip _).add (effort_atMost d.zip _)).mono (by omega)
  | swap o n => exact (swapping_atMost d n).mono (by simp only [Recipe.bytes]; omega)

theorem reverting_atMost (d : ZDoc) (r : Recipe) : (d.reverting S.segs A.grant r).AtMost (3 * (blen d.zip.text + r.bytes)) := by
  cases r with
  | put s p => exact (effort_atMost d.zip _).mono (by omega)
  | cut o p q =>
    cases o with
    | none => exact nothing_atMost _
    | some o => exact (insert_atMost d.zip _ _).mono (by omega)
  | swap o n => exact (swapping_atMost d o).mono (by simp only [Recipe.bytes]; omega)

theorem clusters_bytes {z : Zip} {a b : List Text} (h : z.clusters S.segs = a ++ b) : blen a.flatten + blen b.flatten = blen z.text := by
  have := congrArg (fun x => blen x.flatten) h
  simp only [Zip.clusters, List.flatten_append, S.join, blen_append] at this
  rw [bytes_text, this]

/-- A call adds at most what it inserts. -/
theorem call_bytes (z : Zip) (c : Call) : blen (z.call S.segs A.grant c).2.text ≤ blen z.text + demand c := by
  cases c with
  | insert s p =>
    have hb : blen (z.reserve A.grant (blen s)).text = blen z.text := by rw [bytes_text, GapBuffer.reserve_bytes, ← bytes_text]
    simp only [Zip.call, demand]
    cases hl : locate ((z.reserve A.grant (blen s)).clusters S.segs) p with
    | none => dsimp only; omega
    | some x =>
      obtain ⟨a, b⟩ := x
      have := clusters_bytes (locate_eq_some.mp hl).1
      simp only [Zip.text, blen_append] at this hb ⊢
      omega
  | delete p q =>
    simp only [Zip.call, demand]
    cases hl : locate (z.clusters S.segs) (lo p q) with
    | none => dsimp only; omega
    | some x =>
      obtain ⟨a, b⟩ := x
      have h1 := clusters_bytes (locate_eq_some.mp hl).1
      have h2 : blen (afterEnd (Zip.clusters S.segs { z with left := a.flatten, right := b.flatten }) (hi p q)).flatten ≤ blen b.flatten := by
        have hle : AtOrBefore (endPos (S.segs a.flatten)) (hi p q) := by
          have := endPos_le_of_moved (locate_eq_some.mp hl).1
          rw [(locate_eq_some.mp hl).2] at this
          exact this.trans (lo_le_hi p q)
        have key : ∀ q' a' b', AtOrBefore (hi p q) q' → locate (S.segs a.flatten ++ S.segs b.flatten) q' = some (a', b') → blen b'.flatten ≤ blen b.flatten := by
          intro q' a' b' hq hl'
          obtain ⟨k1, k2⟩ := locate_eq_some.mp hl'
          obtain ⟨x, -, hx⟩ := split_mono k1 (by rw [k2]; exact hle.trans hq)
          have := congrArg (fun x => blen x.flatten) hx
          simp only [S.join, List.flatten_append, blen_append] at this
          omega
        unfold afterEnd Zip.clusters
        dsimp only
        split
        · rename_i hl'; exact key _ _ _ (.refl _) hl'
        · split
          · rename_i hl'; exact key _ _ _ (Or.inl (by simp)) hl'
          · exact Nat.zero_le _
      simp only [Zip.text, blen_append] at h1 ⊢
      omega
  | read p q => simp only [Zip.call]; split <;> exact Nat.le_add_right _ _
  | inBounds p => exact Nat.le_add_right _ _
  | toStr => exact Nat.le_add_right _ _

theorem swapIn_text (d : ZDoc) (t : Text) : (d.swapIn S.segs A.grant t).zip.text = t := by
  simp [ZDoc.swapIn, report_zip, Zip.fresh, Zip.text]

theorem perform_bytes (d : ZDoc) (r : Recipe) : blen (d.perform S.segs A.grant r).zip.text ≤ blen d.zip.text + r.bytes := by
  cases r with
  | put s p => simp only [ZDoc.perform, ZDoc.alter, report_zip]; exact call_bytes d.zip (.insert s p)
  | cut o p q =>
    simp only [ZDoc.perform, ZDoc.alter, report_zip]
    exact Nat.le_trans (call_bytes d.zip (.delete p q)) (by simp only [demand]; omega)
  | swap o n => simp only [ZDoc.perform, swapIn_text, Recipe.bytes]; omega

theorem revert_bytes (d : ZDoc) (r : Recipe) : blen (d.revert S.segs A.grant r).zip.text ≤ blen d.zip.text + r.bytes := by
  cases r with
  | put s p =>
    simp only [ZDoc.revert, ZDoc.alter, report_zip]
    exact Nat.le_trans (call_bytes d.zip (.delete p _)) (by simp only [demand]; omega)
  | cut o p q =>
    cases o with
    | none => exact Nat.le_add_right _ _
    | some o => simp only [ZDoc.revert, ZDoc.alter, report_zip]; exact call_bytes d.zip (.insert o p)
  | swap o n => simp only [ZDoc.revert, swapIn_text, Recipe.bytes]; omega

theorem performingAll_atMost (rs : List Recipe) (d : ZDoc) (n : Nat) (h : blen d.zip.text + (rs.map Recipe.bytes).sum ≤ n) :
    (d.performingAll S.segs A.grant rs).AtMost (6 * rs.length * n) := by
  induction rs generalizing d with
  | nil => exact nothing_atMost _
  | cons r rs ih =>
    simp only [List.map_cons, List.sum_cons] at h
    have h1 := perform_bytes (S := S) (A := A) d r
    refine ((performing_atMost d r).add (ih _ (by omega))).mono ?_
    have : 6 * (r :: rs).length * n = 6 * n + 6 * rs.length * n := by rw [List.length_cons, Nat.mul_succ, Nat.add_mul, Nat.add_comm]
    rw [this]
    have : 6 * (blen d.zip.text + r.bytes) ≤ 6 * n := by omega
    omega

theorem revertingAll_atMost (rs : List Recipe) (d : ZDoc) (n : Nat) (h : blen d.zip.text + (rs.map Recipe.bytes).sum ≤ n) :
    (d.revertingAll S.segs A.grant rs).AtMost (3 * rs.length * n) := by
  induction rs generalizing d with
  | nil => exact nothing_atMost _
  | cons r rs ih =>
    simp only [List.map_cons, List.sum_cons] at h
    have h1 := revert_bytes (S := S) (A := A) d r
    refine ((reverting_atMost d r).add (ih _ (by omega))).mono ?_
    have : 3 * (r :: rs).length * n = 3 * n + 3 * rs.length * n := by rw [List.length_cons, Nat.mul_succ, Nat.add_mul, Nat.add_comm]
    rw [this]
    have : 3 * (blen d.zip.text + r.bytes) ≤ 3 * n := by omega
    omega

/-- Looking up the end of the text, or anything behind it, decodes all of it. -/
theorem lookup_end (z : Zip) (p : Position) (hp : AtOrBefore (endPos (z.clusters S.segs)) p) : (z.lookup S.segs p).decoded = blen z.text := by
  rw [bytes_text]
  unfold Zip.lookup
  cases hl : locate (z.clusters S.segs) p with
  | none => rfl
  | some x =>
    obtain ⟨a, b⟩ := x
    obtain ⟨hab, ha⟩ := locate_eq_some.mp hl
    have hb : b = [] := by
      by_contra hb
      have := endPos_lt_append a hb
      rw [← hab, ha] at this
      exact Before.irrefl _ (this.trans_le hp)
    subst hb
    rw [List.append_nil] at hab
    dsimp only
    split
    · rename_i hle
      rw [← hab, Zip.clusters, List.length_append] at hle
      have h0 : S.segs z.right = [] := List.length_eq_zero_iff.mp (by omega)
      have : z.right = [] := by rw [← S.join z.right, h0]; rfl
      simp [this]
    · rfl

theorem lookup_left (z : Zip) (p : Position) (hz : z.right = []) : (z.lookup S.segs p).decoded = blen z.text := by
  rw [bytes_text]
  unfold Zip.lookup
  split
  · split <;> simp [hz]
  · rfl

/-- Inserting at the end of the text. -/
theorem insert_end (z : Zip) (s : Text) (p : Position) (hp : p = endPos (z.clusters S.segs)) : (z.effort S.segs A.grant (.insert s p)).decoded = blen z.text := by
  have hb : blen (z.reserve A.grant (blen s)).text = blen z.text := by rw [bytes_text, GapBuffer.reserve_bytes, ← bytes_text]
  rw [← hb]
  simp only [Zip.effort]
  by_cases hr : blen s ≤ z.room
  · have e : z.reserve A.grant (blen s) = z := by unfold Zip.reserve; rw [if_pos hr]
    rw [e]
    exact lookup_end z p (hp ▸ .refl _)
  · exact lookup_left _ _ (by unfold Zip.reserve; rw [if_neg hr])

end Scribe
