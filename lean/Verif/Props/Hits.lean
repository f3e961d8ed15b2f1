import Verif.Proofs.Sheet
import Verif.Proofs.Walk
import Verif.Props.Search
/-!
# C118: going to what search has found

`search` counts bytes, positions count clusters.
-/
namespace Scribe.Props
open Spec Buf
variable (S : Segmenter) (A : Alloc)

/-- What the hits are, in a text without carriage returns. -/
theorem hit_line {b : Buf} {t needle : Text} {ps : List Position} {p : Position} (ht : b.data.toStr = .ok t) (hcr : '\r' ∉ t) (hs : b.search needle = .ok ps) (hp : p ∈ ps) :
    ∃ x y, (splitNl t)[p.line]? = some (x ++ needle ++ y) ∧ blen x = p.offset := by
  obtain ⟨r, h1, -, h3⟩ := C30_search b t needle ht
  obtain rfl := Except.ok.inj (h1.symm.trans hs)
  obtain ⟨l, x, y, k1, rfl, k3, -⟩ := (h3 p).mp hp
  refine ⟨x, y, ?_, k3.symm⟩
  cases hl : (splitNl t)[p.line]? with
  | none =>
    have hge := List.getElem?_eq_none_iff.mp hl
    have hlen : (strLines t).length ≤ (splitNl t).length := by
      clear * -
      induction t using lines_induction with
      | h1 l h => rw [strLines_no_nl h, splitNl_no_nl h]; split <;> simp
      | h2 l r h ih => rw [strLines_append h, splitNl_append h]; simp only [List.length_cons]; omega
    have := (List.getElem?_eq_some_iff.mp k1).1
    omega
  | some l =>
    rcases strLines_getElem hcr _ hl with h | ⟨h, -⟩
    · rw [h] at k1; exact k1
    · rw [h] at k1; cases k1

theorem length_le_blen (cs : List Text) (h : ∀ c ∈ cs, c ≠ []) : cs.length ≤ blen cs.flatten := by
  induction cs with
  | nil => simp
  | cons c cs ih =>
    have := blen_pos (h c (by simp))
    have := ih fun c hc => h c (by simp [hc])
    rw [List.flatten_cons, blen_append, List.length_cons]; omega

theorem length_eq_blen (cs : List Text) (h : ∀ c ∈ cs, c ≠ []) : cs.length = blen cs.flatten ↔ ∀ c ∈ cs, blen c = 1 := by
  induction cs with
  | nil => simp
  | cons c cs ih =>
    have h1 := blen_pos (h c (by simp))
    have h2 := length_le_blen cs fun c hc => h c (by simp [hc])
    have ih := ih fun c hc => h c (by simp [hc])
    rw [List.flatten_cons, blen_append, List.length_cons, List.forall_mem_cons, ← ih]
    omega

/-- Reading within a line. -/
theorem read_line {t l : Text} {i : Nat} (hcr : '\r' ∉ t) (hl : (splitNl t)[i]? = some l) {j k : Nat} (hjk : j ≤ k) :
    readRange S.segs t ⟨i, j⟩ ⟨i, k⟩ = if k ≤ (S.segs l).length then some (((S.segs l).take k).drop j).flatten else none := by
  have hr : (rows (S.segs t))[i]? = some (S.segs l) := by rw [rows_splitNl hcr, List.getElem?_map, hl]; rfl
  rw [read_rows t ⟨i, j⟩ ⟨i, k⟩ (Or.inr ⟨rfl, hjk⟩), Page.between]
  have hlt := (List.getElem?_eq_some_iff.mp hr).1
  simp only [Page.has, hr]
  by_cases hk : k ≤ (S.segs l).length
  · rw [if_pos (by simp; omega), if_pos hk]
    have e : (rows (S.segs t)).upTo ⟨i, k⟩ = (rows (S.segs t)).take i ++ [(S.segs l).take k] := by simp [Page.upTo, hr]
    rw [e]
    have hlen : ((rows (S.segs t)).take i).length = i := by rw [List.length_take]; omega
    have hd : ((rows (S.segs t)).take i ++ [(S.segs l).take k]).drop (i + 1) = [] := List.drop_eq_nil_of_le (by simp; omega)
    simp only [Page.onFrom, Option.map_some, hd]
    rw [List.getElem?_append_right (by omega), hlen]
    simp [Page.text]
  · rw [if_neg (by simp; omega), if_neg hk]; rfl

/-- **C118.** Whether a position that `search` gives exists: if the line has as many clusters as there are bytes before the occurrence. -/
theorem C118_bounds (b : Buf) (d : Doc) (h : Reached S A b d) (t needle : Text) (ht : b.data.toStr = .ok t) (hcr : '\r' ∉ t) (ps : List Position)
    (hs : b.search needle = .ok ps) (p : Position) (hp : p ∈ ps) :
    ∃ x y, (splitNl t)[p.line]? = some (x ++ needle ++ y) ∧ blen x = p.offset ∧ b.data.inBounds S p = .ok (decide (blen x ≤ (S.segs (x ++ needle ++ y)).length)) := by
  obtain ⟨s, hsn⟩ := h.tri
  have hd := hsn.sim.face.data
  obtain rfl := Except.ok.inj (hd.toStr.symm.trans ht)
  obtain ⟨x, y, h1, h2⟩ := hit_line ht hcr hs hp
  refine ⟨x, y, h1, h2, ?_⟩
  rw [hd.inBounds]
  congr 1
  rw [Bool.eq_iff_iff, Cursor.exists_lineLen (i := p.line) (o := p.offset) hcr, lineLen, h1, h2]
  simp

/-- **C118.** If an occurrence begins and ends between clusters, it is where the clusters before it in its line are counted: reading there gives the needle. -/
theorem C118_column (b : Buf) (d : Doc) (h : Reached S A b d) (t needle : Text) (ht : b.data.toStr = .ok t) (hcr : '\r' ∉ t) (ps : List Position)
    (hs : b.search needle = .ok ps) (p : Position) (hp : p ∈ ps) :
    ∃ x y, (splitNl t)[p.line]? = some (x ++ needle ++ y) ∧ blen x = p.offset ∧
      ∀ a m c, S.segs (x ++ needle ++ y) = a ++ m ++ c → a.flatten = x → m.flatten = needle →
        b.data.read S ⟨⟨p.line, (S.segs x).length⟩, ⟨p.line, (S.segs x).length + (S.segs needle).length⟩⟩ = .ok (some needle) ∧
        (S.segs x).length ≤ p.offset ∧ ((S.segs x).length = p.offset ↔ ∀ g ∈ S.segs x, blen g = 1) := by
  obtain ⟨s, hsn⟩ := h.tri
  have hd := hsn.sim.face.data
  obtain rfl := Except.ok.inj (hd.toStr.symm.trans ht)
  obtain ⟨x, y, h1, h2⟩ := hit_line ht hcr hs hp
  refine ⟨x, y, h1, h2, ?_⟩
  rintro a m c hc rfl rfl
  have ha : S.segs a.flatten = a := (S.cut _ a (m ++ c) (by rw [hc]; simp)).1
  have hm : S.segs m.flatten = m := (S.cut _ m c (S.cut _ a (m ++ c) (by rw [hc]; simp)).2).1
  rw [ha, hm]
  have hne : ∀ g ∈ a, g ≠ [] := fun g hg => S.nonempty _ g (by rw [ha]; exact hg)
  refine ⟨?_, by rw [← h2]; exact length_le_blen a hne, by rw [← h2]; exact length_eq_blen a hne⟩
  rw [hd.read _ (Or.inr ⟨rfl, Nat.le_add_right _ _⟩)]
  simp only
  rw [read_line S hcr h1 (Nat.le_add_right _ _), hc, if_pos (by simp)]
  rw [show a.length + m.length = (a ++ m).length by simp, List.take_left, List.drop_left]

/-- **C118.** What is read by someone who takes the position that `search` gives as it is: as many clusters as are asked for, but after as many clusters as there are bytes before
the occurrence; nothing if the line is not that long. -/
theorem C118_astray (b : Buf) (d : Doc) (h : Reached S A b d) (t needle : Text) (ht : b.data.toStr = .ok t) (hcr : '\r' ∉ t) (ps : List Position)
    (hs : b.search needle = .ok ps) (p : Position) (hp : p ∈ ps) (n : Nat) :
    ∃ x y, (splitNl t)[p.line]? = some (x ++ needle ++ y) ∧ blen x = p.offset ∧
      b.data.read S ⟨p, ⟨p.line, p.offset + n⟩⟩ = .ok (if blen x + n ≤ (S.segs (x ++ needle ++ y)).length then
        some (((S.segs (x ++ needle ++ y)).drop (blen x)).take n).flatten else none) := by
  obtain ⟨s, hsn⟩ := h.tri
  have hd := hsn.sim.face.data
  obtain rfl := Except.ok.inj (hd.toStr.symm.trans ht)
  obtain ⟨x, y, h1, h2⟩ := hit_line ht hcr hs hp
  refine ⟨x, y, h1, h2, ?_⟩
  rw [hd.read _ (Or.inr ⟨rfl, Nat.le_add_right _ _⟩)]
  simp only
  rw [show p = ⟨p.line, p.offset⟩ from rfl]
  simp only
  rw [read_line S hcr h1 (Nat.le_add_right _ _), h2, List.drop_take, Nat.add_sub_cancel_left]

/-! ## Cases -/

private def found (t needle : String) : R (List (Position × Option Text)) := do
  let b := Buf.fromContent Demo.tight 0 (Demo.s t)
  (← b.search (Demo.s needle)).mapM fun p => do return (p, ← b.data.read Demo.seg ⟨p, ⟨p.line, p.offset + needle.length⟩⟩)

/-- Two hits in a line with accents. At the first position there is something else, the second does not exist. -/
example : found "éxéx\nx" "x" = .ok [(⟨0, 2⟩, some (Demo.s "é")), (⟨0, 5⟩, none), (⟨1, 0⟩, some (Demo.s "x"))] := by decide +kernel

/-- Their columns are 1 and 3. -/
example : let b := Buf.fromContent Demo.tight 0 (Demo.s "éxéx\nx")
    (Demo.seg.segs (Demo.s "é")).length = 1 ∧ (Demo.seg.segs (Demo.s "éxé")).length = 3 ∧ b.data.read Demo.seg ⟨⟨0, 1⟩, ⟨0, 2⟩⟩ = .ok (some (Demo.s "x")) ∧
    b.data.read Demo.seg ⟨⟨0, 3⟩, ⟨0, 4⟩⟩ = .ok (some (Demo.s "x")) := by decide +kernel

end Scribe.Props
