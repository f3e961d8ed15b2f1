import Verif.Proofs.Marks
import Verif.Props.Buffer
/-!
# Property C95: positions kept up to date by arithmetic
-/
namespace Scribe.Props
open Spec Buf
variable {S : Segmenter}

theorem read_le {b : GapBuffer} {t : Text} (h : Holds S b t) {p q : Position} (hpq : AtOrBefore p q) :
    b.read S (Range.new p q) = .ok (readRange S.segs t p q) := by
  rw [h.read _ (range_new_ok p q), range_new_of_le hpq]

/-- **C95.** Adjacent ranges read join up. -/
theorem C95_join (A : Alloc) (b : Buf) (d : Doc) (p q r : Position) (u v : Text) (h : Reached S A b d) (hpq : AtOrBefore p q) (hqr : AtOrBefore q r)
    (h1 : b.data.read S (Range.new p q) = .ok (some u)) (h2 : b.data.read S (Range.new q r) = .ok (some v)) :
    b.data.read S (Range.new p r) = .ok (some (u ++ v)) := by
  obtain ⟨s, hs⟩ := h.tri
  have hd := hs.sim.face.data
  rw [read_le hd hpq] at h1
  rw [read_le hd hqr] at h2
  rw [read_le hd (hpq.trans hqr), readRange_join hpq hqr (Except.ok.inj h1) (Except.ok.inj h2)]

/-- **C95.** After an insertion at the cursor, which exists: every position moved by `afterInsert` exists exactly if it did; what is read between positions up to the
cursor is the same, what is read between positions from the cursor on is found between the moved positions, and between the cursor and its moved position is the
inserted text. -/
theorem C95_insert (A : Alloc) (b b' : Buf) (d : Doc) (s : Text) (h : Reached S A b d) (hc : CleanCmd S.segs d (.insert s))
    (he : exec S A b (.insert s) = .ok b') (hp : b.data.inBounds S b.cursor.position = .ok true) (f : Position → Position)
    (hf : f = afterInsert b.cursor.position (endPos (S.segs s))) :
    (∀ q, b'.data.inBounds S (f q) = b.data.inBounds S q) ∧
      (∀ q r, AtOrBefore q r → AtOrBefore r b.cursor.position → b'.data.read S (Range.new q r) = b.data.read S (Range.new q r)) ∧
      (∀ q r, AtOrBefore b.cursor.position q → AtOrBefore q r → b'.data.read S (Range.new (f q) (f r)) = b.data.read S (Range.new q r)) ∧
      b'.data.read S (Range.new b.cursor.position (f b.cursor.position)) = .ok (some s) := by
  obtain ⟨x, hs⟩ := h.tri
  obtain ⟨x', hs'⟩ := (h.step hc he).tri
  have hd := hs.sim.face.data
  have hd' := hs'.sim.face.data
  rw [show (d.step S.segs (.insert s)).text = insertAt S.segs d.text s d.cursor.position from (step_edit S.segs d _ rfl).1] at hd'
  have hcu := hs.sim.face.cursor
  rw [hcu] at hp hf ⊢
  rw [hd.inBounds] at hp
  obtain ⟨a, y, k1, k2, k3⟩ := insert_clusters hc.1 (Except.ok.inj hp)
  rw [← k2] at hf k3 hd' ⊢
  have hf0 : f (endPos a) = endPos (a ++ S.segs s) := by
    have := afterInsert_append a (S.segs s) []
    simpa [hf] using this
  have hf1 : ∀ z, f (endPos (a ++ z)) = endPos (a ++ S.segs s ++ z) := by intro z; rw [hf, afterInsert_append]
  have hle : ∀ r, AtOrBefore (endPos a) r → AtOrBefore (endPos (a ++ S.segs s)) (f r) := by
    intro r hr
    rw [← hf0, hf]; exact afterInsert_le hr
  have hinj : ∀ r r', AtOrBefore (endPos a) r → AtOrBefore (endPos a) r' → f r = f r' → r = r' := by
    intro r r' h1 h2 h3
    rw [hf] at h3; exact afterInsert_inj h1 h2 h3
  refine ⟨?_, ?_, ?_, ?_⟩
  · intro q
    rw [hd.inBounds, hd'.inBounds]
    congr 1
    unfold exists?
    rw [k3, k1]
    by_cases hb : Before q (endPos a)
    · have := locate_common (a := a) (b := S.segs s ++ y) (b' := y) hb.le
      rw [hf, afterInsert_before hb, List.append_assoc]
      have h2 := congrArg Option.isSome this
      simpa using h2
    · rcases locate_moved (b := y) (le_of_not_before hb) hf1 hle hinj with ⟨e1, e2⟩ | ⟨_, _, _, e1, e2⟩ <;> rw [e1, e2] <;> rfl
  · intro q r hqr hr
    rw [read_le hd hqr, read_le hd' hqr]
    congr 1
    refine readRange_fst ?_ ?_ <;> rw [k3, k1, List.append_assoc]
    · exact locate_common (hqr.trans hr)
    · exact locate_common hr
  · intro q r hq hqr
    rw [read_le hd hqr, read_le hd' (by rw [hf]; exact afterInsert_mono hqr)]
    congr 1
    exact readRange_moved k1 k3 hq (hq.trans hqr) hf1 hle hinj
  · rw [hf0, read_le hd' (endPos_le_append _ _)]
    congr 1
    unfold readRange
    rw [k3, locate_append, List.append_assoc, locate_append]
    simp [S.join]

/-- **C95.** After the deletion of a range whose ends `p` and `q` exist: positions up to `p` are as before, and positions from `q` on are found, moved by
`afterDelete`. -/
theorem C95_delete (A : Alloc) (b b' : Buf) (d : Doc) (p q : Position) (h : Reached S A b d) (hpq : AtOrBefore p q) (hc : CleanCmd S.segs d (.deleteRange p q))
    (he : exec S A b (.deleteRange p q) = .ok b') (hp : b.data.inBounds S p = .ok true) (hq : b.data.inBounds S q = .ok true) (f : Position → Position)
    (hf : f = afterDelete p q) :
    (∀ r, AtOrBefore r p ∨ AtOrBefore q r → b'.data.inBounds S (f r) = b.data.inBounds S r) ∧
      (∀ r r', AtOrBefore r r' → AtOrBefore r' p → b'.data.read S (Range.new r r') = b.data.read S (Range.new r r')) ∧
      (∀ r r', AtOrBefore q r → AtOrBefore r r' → b'.data.read S (Range.new (f r) (f r')) = b.data.read S (Range.new r r')) := by
  obtain ⟨x, hs⟩ := h.tri
  obtain ⟨x', hs'⟩ := (h.step hc he).tri
  have hd := hs.sim.face.data
  have hd' := hs'.sim.face.data
  rw [show (d.step S.segs (.deleteRange p q)).text = Spec.deleteRange S.segs d.text (lo p q) (hi p q) from (step_edit S.segs d _ rfl).1, lo_of_le hpq, hi_of_le hpq] at hd'
  change CleanRange S.segs d.text (lo p q) (hi p q) at hc
  rw [lo_of_le hpq, hi_of_le hpq] at hc
  rw [hd.inBounds] at hp hq
  obtain ⟨a, z, y, k1, k2, k3, k4⟩ := delete_clusters hpq hc (Except.ok.inj hp) (Except.ok.inj hq)
  have hf1 : ∀ w, f (endPos (a ++ z ++ w)) = endPos (a ++ w) := by intro w; rw [hf, ← k3, ← k2, afterDelete_append]
  have hfq : f q = p := by
    have := hf1 []
    rwa [List.append_nil, List.append_nil, k3, k2] at this
  have hle : ∀ r, AtOrBefore (endPos (a ++ z)) r → AtOrBefore (endPos a) (f r) := by
    intro r hr
    rw [k3] at hr
    rw [k2, ← hfq, hf]; exact afterDelete_mono hpq hr
  have hinj : ∀ r r', AtOrBefore (endPos (a ++ z)) r → AtOrBefore (endPos (a ++ z)) r' → f r = f r' → r = r' := by
    intro r r' h1 h2 h3
    rw [k3] at h1 h2
    rw [hf] at h3; exact afterDelete_inj hpq h1 h2 h3
  refine ⟨?_, ?_, ?_⟩
  · intro r hr
    rw [hd.inBounds, hd'.inBounds]
    congr 1
    unfold exists?
    rw [k4, k1]
    rcases hr with hr | hr
    · have e : f r = r := by
        rw [hf]
        by_cases hb : Before r p
        · exact afterDelete_before hb
        · have : r = p := by
            obtain ⟨rl, ro⟩ := r; obtain ⟨pl, po⟩ := p
            have h2 := le_of_not_before hb
            unfold AtOrBefore at hr h2
            simp only at hr h2
            rw [Position.mk.injEq]; omega
          rw [this]; exact afterDelete_start hpq
      have := locate_common (a := a) (b := y) (b' := z ++ y) (q := r) (by rw [k2]; exact hr)
      rw [e, List.append_assoc]
      have h2 := congrArg Option.isSome this
      simpa using h2
    · rcases locate_moved (b := y) (by rw [k3]; exact hr) hf1 hle hinj with ⟨e1, e2⟩ | ⟨_, _, _, e1, e2⟩ <;> rw [e1, e2] <;> rfl
  · intro r r' hrr hr
    rw [read_le hd hrr, read_le hd' hrr]
    congr 1
    refine readRange_fst ?_ ?_ <;> rw [k4, k1, List.append_assoc]
    · exact locate_common (by rw [k2]; exact hrr.trans hr)
    · exact locate_common (by rw [k2]; exact hr)
  · intro r r' hr hrr
    rw [read_le hd hrr, read_le hd' (by rw [hf]; exact afterDelete_mono hpq hrr)]
    congr 1
    exact readRange_moved k1 k4 (by rw [k3]; exact hr) (by rw [k3]; exact hr.trans hrr) hf1 hle hinj

/-- **C95.** Deleting (or undoing) what was inserted brings every mark back to where it was. -/
theorem C95_back (p e m : Position) : afterDelete p (afterInsert p e p) (afterInsert p e m) = m := afterDelete_afterInsert p e m

/-- **C95.** Over a whole session: a mark put at a cluster and moved along by arithmetic after each call stays at that cluster until the mark is given up. -/
theorem C95_session (A : Alloc) (b b' : Buf) (d : Doc) (cs : List Cmd) (m m' : Position) (c : Text) (h : Reached S A b d) (hc : CleanCmds S.segs d cs)
    (he : execAll S A b cs = .ok b') (hm : b.data.read S (Range.new m (following m c)) = .ok (some c)) (hne : c ≠ [])
    (hs : markSteps S.segs d m cs = some m') : b'.data.read S (Range.new m' (following m' c)) = .ok (some c) := by
  have hfl : ∀ m : Position, AtOrBefore m (following m c) := by intro m; unfold following AtOrBefore; split <;> simp
  obtain ⟨x, hx⟩ := h.tri
  obtain ⟨x', hx'⟩ := (h.all cs hc he).tri
  rw [read_le hx.sim.face.data (hfl m)] at hm
  rw [read_le hx'.sim.face.data (hfl m')]
  obtain ⟨h1, _⟩ := readRange_following.mpr (mark_steps cs hc (readRange_following.mp ⟨Except.ok.inj hm, hne⟩) hs)
  rw [h1]

/-- A mark at the `d` of `abc\nd`, through an insertion of two lines, a deletion before it, another across the lines, and one behind it. -/
example : markSteps Demo.seg.segs (Doc.new (Demo.s "abc\ndef") true) ⟨1, 0⟩
    [.move .endOfLine, .insert (Demo.s "x\ny"), .delete, .setCursor ⟨0, 0⟩, .delete, .deleteRange ⟨2, 0⟩ ⟨0, 2⟩, .deleteRange ⟨0, 3⟩ ⟨0, 4⟩] = some ⟨0, 2⟩ ∧
    (execAll Demo.seg Demo.tight (Buf.fromContent Demo.tight 0 (Demo.s "abc\ndef"))
      [.move .endOfLine, .insert (Demo.s "x\ny"), .delete, .setCursor ⟨0, 0⟩, .delete, .deleteRange ⟨2, 0⟩ ⟨0, 2⟩, .deleteRange ⟨0, 3⟩ ⟨0, 4⟩] >>=
      fun b => do return (← b.data.toStr, ← b.data.read Demo.seg (Range.new ⟨0, 2⟩ ⟨0, 3⟩))) = .ok (Demo.s "bcdf", some (Demo.s "d")) := by decide +kernel

/-- A mark whose cluster is deleted. -/
example : markSteps Demo.seg.segs (Doc.new (Demo.s "abc") true) ⟨0, 1⟩ [.deleteRange ⟨0, 1⟩ ⟨0, 2⟩] = none := by decide +kernel

end Scribe.Props
