import Verif.Proofs.GapRun
import Verif.Proofs.Lines
import Verif.Demo
/-!
# Properties C01–C11 and C45: the gap buffer
-/
namespace Scribe.Props
open Spec GapBuffer

theorem reachable_rep {S A g} (h : Reachable S A g) : ∃ pre post, Rep g pre post := by
  obtain ⟨k, t, cs, os, h⟩ := h
  obtain ⟨os', g', pre, post, h', hr, _⟩ := run_rep (S := S) (A := A) (new_rep (A := A) k t) cs
  rw [h'] at h
  obtain ⟨_, rfl⟩ := Prod.mk.inj (Except.ok.inj h)
  exact ⟨pre, post, hr⟩

/-- **C01.** No sequence of calls, with any strings, positions and ranges, panics, for any segmenter
and allocator. -/
theorem C01_no_panic (S : Segmenter) (A : Alloc) (k : Nat) (t : Text) (cs : List Call) :
    ∃ os g, run S A (GapBuffer.new A k t) cs = .ok (os, g) := by
  obtain ⟨os, g, _, _, h, _⟩ := run_rep (S := S) (A := A) (new_rep (A := A) k t) cs
  exact ⟨os, g, h⟩

/-- C01 for the real segmentation algorithm with any Unicode table. -/
theorem C01_no_panic_uax29 (T : Uax29.Table) (A : Alloc) (k : Nat) (t : Text) (cs : List Call) :
    ∃ os g, run (Uax29.segmenter T) A (GapBuffer.new A k t) cs = .ok (os, g) :=
  C01_no_panic _ A k t cs

example : (run Demo.seg Demo.tight (GapBuffer.new Demo.tight 0 (Demo.s "é\r\nab"))
    [.insert (Demo.s "xy") ⟨0, 1⟩, .delete ⟨9, 9⟩ ⟨0, 2⟩, .read ⟨0, 0⟩ ⟨0, 2⟩, .inBounds ⟨7, 7⟩, .toStr]).isOk := by decide +kernel

/-- **C02.** After any sequence of calls the data is exactly the UTF-8 encoding of one text, then
the gap, then the encoding of another text; `to_string` is those two texts; every character of it was in
the initial text or in an inserted string; and everything `read` returns is a contiguous part of it. -/
theorem C02_contents (S : Segmenter) (A : Alloc) (k : Nat) (t : Text) (cs : List Call) (os : List Obs) (g : GapBuffer)
    (h : run S A (GapBuffer.new A k t) cs = .ok (os, g)) :
    ∃ pre gap post, g.data = enc pre ++ gap ++ enc post ∧ g.gapStart = blen pre ∧ g.gapLength = gap.length ∧
      toStr g = .ok (pre ++ post) ∧
      (∀ c ∈ pre ++ post, c ∈ t ∨ ∃ s ∈ inserted cs, c ∈ s) ∧
      (∀ p q v, read S g (Range.new p q) = .ok (some v) → v <:+: pre ++ post) := by
  obtain ⟨os', g', pre, post, h', hr, hm⟩ := run_rep (S := S) (A := A) (new_rep (A := A) k t) cs
  rw [h'] at h
  obtain ⟨_, rfl⟩ := Prod.mk.inj (Except.ok.inj h)
  obtain ⟨gap, h1, h2, h3⟩ := id hr
  refine ⟨pre, gap, post, h1, h2, h3, hr.toStr, by simpa using hm, ?_⟩
  intro p q v hv
  rw [read_rep hr _ (range_new_ok p q)] at hv
  have hj : pre ++ post = (S.segs pre ++ S.segs post).flatten := by rw [List.flatten_append, S.join, S.join]
  revert hv
  cases hl : locate (S.segs pre ++ S.segs post) (Range.new p q).start with
  | none => intro hv; simp at hv
  | some x =>
    cases hl2 : locate (S.segs pre ++ S.segs post) (Range.new p q).stop with
    | none => intro hv; simp at hv
    | some y =>
      intro hv
      obtain ⟨a, b⟩ := x
      obtain ⟨a', b'⟩ := y
      obtain ⟨d, rfl, rfl⟩ := locate_mono hl hl2 (range_new_ok p q)
      simp at hv
      rw [hj, (locate_eq_some.mp hl2).1, ← hv]
      exact ⟨a.flatten, b'.flatten, by simp⟩

example : ∃ os g, run Demo.seg Demo.loose (GapBuffer.new Demo.loose 0 (Demo.s "aé")) [.insert (Demo.s "ü") ⟨0, 1⟩] = .ok (os, g)
    ∧ g.gapLength = 3 ∧ toStr g = .ok (Demo.s "aüé") := ⟨_, _, rfl, by decide +kernel, by decide +kernel⟩

/-- **C03.** If `p` names the place between `x` and `y` in the text, `insert` produces `x ++ s ++ y`,
wherever the gap is and whether or not it reallocates. -/
theorem C03_insert (S : Segmenter) (A : Alloc) (g : GapBuffer) (t s x y : Text) (p : Position)
    (h : Holds S g t) (hp : PlaceIn (S.segs t) p x y) :
    t = x ++ y ∧ ∃ g', insert S A g s p = .ok g' ∧ toStr g' = .ok (x ++ s ++ y) := by
  obtain ⟨a, b, hl, rfl, rfl⟩ := placeIn_iff.mp hp
  obtain ⟨g', hi, ht, _⟩ := h.insert (A := A) s p
  refine ⟨?_, g', hi, ?_⟩
  · rw [← S.join t, (locate_eq_some.mp hl).1, List.flatten_append]
  · rw [ht, insertAt, hl]

/-- C03 continued: if the insertion does not fuse clusters, the gap is again on a cluster boundary, so the
theorem applies to the next operation. -/
theorem C03_insert_again (S : Segmenter) (A : Alloc) (g : GapBuffer) (t s x y : Text) (p : Position)
    (h : Holds S g t) (hp : PlaceIn (S.segs t) p x y)
    (hc : S.segs (x ++ s ++ y) = S.segs x ++ S.segs s ++ S.segs y) :
    ∃ g', insert S A g s p = .ok g' ∧ Holds S g' (x ++ s ++ y) := by
  obtain ⟨a, b, hl, rfl, rfl⟩ := placeIn_iff.mp hp
  obtain ⟨g', hi, ht, hh⟩ := h.insert (A := A) s p
  have hab := (locate_eq_some.mp hl).1
  have e : insertAt S.segs t s p = a.flatten ++ s ++ b.flatten := by rw [insertAt, hl]
  refine ⟨g', hi, ?_⟩
  rw [← e]
  apply hh
  intro a' b' hl'
  rw [hl] at hl'
  obtain ⟨rfl, rfl⟩ := Prod.mk.inj (Option.some.inj hl')
  rw [hc, S.cut_left hab, S.cut_right hab]

/-- A fresh buffer satisfies the hypothesis of the theorems about aligned buffers. -/
theorem holds_new (S : Segmenter) (A : Alloc) (k : Nat) (t : Text) : Holds S (GapBuffer.new A k t) t :=
  GapBuffer.holds_new k t

/-- A state with the gap in the middle, on a cluster boundary. -/
def demoG : GapBuffer := ⟨enc (Demo.s "é\n") ++ [1, 2] ++ enc (Demo.s "xyz"), 4, 2, 3⟩
theorem demoG_holds : Holds Demo.seg demoG (Demo.s "é\nxyz") :=
  ⟨Demo.s "é\n", Demo.s "xyz", by decide +kernel, ⟨[1, 2], by decide +kernel, by decide +kernel, by decide +kernel⟩, by decide +kernel⟩
example : PlaceIn (Demo.seg.segs (Demo.s "é\nxyz")) ⟨1, 1⟩ (Demo.s "é\nx") (Demo.s "yz") :=
  ⟨[Demo.s "é", Demo.s "\n", Demo.s "x"], [Demo.s "y", Demo.s "z"], by decide +kernel, by decide +kernel, by decide +kernel, by decide +kernel⟩

/-- **C04.** If `p` names no place in the text, `insert` leaves `to_string` (and the meaning of every
position) unchanged. -/
theorem C04_insert_out_of_bounds (S : Segmenter) (A : Alloc) (g : GapBuffer) (t s : Text) (p : Position)
    (h : Holds S g t) (hp : ∀ x y, ¬ PlaceIn (S.segs t) p x y) :
    ∃ g', insert S A g s p = .ok g' ∧ toStr g' = .ok t ∧ Holds S g' t := by
  have hl : locate (S.segs t) p = none := by
    rw [locate_eq_none]; intro a b hab he
    exact hp _ _ ⟨a, b, hab, rfl, rfl, he⟩
  obtain ⟨g', hi, ht, hh⟩ := h.insert (A := A) s p
  have e : insertAt S.segs t s p = t := by rw [insertAt, hl]
  rw [e] at ht hh
  refine ⟨g', hi, ht, hh ?_⟩
  intro a b h'; rw [hl] at h'; cases h'

example : ∀ x y, ¬ PlaceIn (Demo.seg.segs (Demo.s "é\nxyz")) ⟨0, 2⟩ x y := by
  intro x y h
  obtain ⟨a, b, hl, _⟩ := placeIn_iff.mp h
  have : locate (Demo.seg.segs (Demo.s "é\nxyz")) ⟨0, 2⟩ = none := by decide +kernel
  rw [this] at hl; cases hl

/-- **C05.** If the range's ends name the places after `x` and after `x ++ d` (before `y`), `delete`
removes exactly `d`. -/
theorem C05_delete (S : Segmenter) (g : GapBuffer) (t x y x' y' : Text) (p q : Position) (hpq : AtOrBefore p q)
    (h : Holds S g t) (hp : PlaceIn (S.segs t) p x y) (hq : PlaceIn (S.segs t) q x' y') :
    ∃ g' d, delete S g (Range.new p q) = .ok g' ∧ toStr g' = .ok (x ++ y') ∧ t = x ++ d ++ y' ∧ x' = x ++ d := by
  obtain ⟨a, b, hl, rfl, rfl⟩ := placeIn_iff.mp hp
  obtain ⟨a', b', hl', rfl, rfl⟩ := placeIn_iff.mp hq
  obtain ⟨d, rfl, rfl⟩ := locate_mono hl hl' hpq
  obtain ⟨g', hd, ht, _⟩ := h.delete (Range.new p q) (range_new_ok p q)
  refine ⟨g', d.flatten, hd, ?_, ?_, by simp⟩
  · rw [ht, range_new_of_le hpq, deleteRange, hl]
    simp only [afterEnd, hl']
  · rw [← S.join t, (locate_eq_some.mp hl).1]; simp

/-- C05 with the range given in the other order. -/
theorem C05_delete_swapped (S : Segmenter) (g : GapBuffer) (p q : Position) :
    delete S g (Range.new p q) = delete S g (Range.new q p) := by
  have : Range.new p q = Range.new q p := by
    rw [range_new, range_new]; unfold lo hi
    split <;> split
    · cases p; cases q; simp_all; omega
    · rfl
    · rfl
    · cases p; cases q; simp_all; omega
  rw [this]

/-- C05 continued: without fusion the result is aligned again. -/
theorem C05_delete_again (S : Segmenter) (g : GapBuffer) (t x y x' y' : Text) (p q : Position) (hpq : AtOrBefore p q)
    (h : Holds S g t) (hp : PlaceIn (S.segs t) p x y) (hq : PlaceIn (S.segs t) q x' y')
    (hc : S.segs (x ++ y') = S.segs x ++ S.segs y') :
    ∃ g', delete S g (Range.new p q) = .ok g' ∧ Holds S g' (x ++ y') := by
  obtain ⟨a, b, hl, rfl, rfl⟩ := placeIn_iff.mp hp
  obtain ⟨a', b', hl', rfl, rfl⟩ := placeIn_iff.mp hq
  obtain ⟨g', hd, ht, hh⟩ := h.delete (Range.new p q) (range_new_ok p q)
  rw [range_new_of_le hpq] at hh
  have e : deleteRange S.segs t p q = a.flatten ++ b'.flatten := by
    rw [deleteRange, hl]; simp only [afterEnd, hl']
  refine ⟨g', hd, ?_⟩
  rw [← e]
  apply hh
  intro a1 b1 h1
  rw [hl] at h1
  obtain ⟨rfl, rfl⟩ := Prod.mk.inj (Option.some.inj h1)
  simp only [afterEnd, hl']
  rw [hc, S.cut_left (locate_eq_some.mp hl).1, S.cut_right (locate_eq_some.mp hl').1]

example : (do toStr (← delete Demo.seg demoG (Range.new ⟨1, 2⟩ ⟨0, 0⟩))) = .ok (Demo.s "z") := by decide +kernel

/-- **C06.** A range starting out of bounds deletes nothing; a range starting in bounds and ending out of bounds
deletes up to the start of the line after its last line, or everything if there is no such line. -/
theorem C06_delete_clips (S : Segmenter) (g : GapBuffer) (t : Text) (p q : Position) (hpq : AtOrBefore p q) (h : Holds S g t) :
    ((∀ x y, ¬ PlaceIn (S.segs t) p x y) → delete S g (Range.new p q) = .ok g) ∧
    ∀ x y, PlaceIn (S.segs t) p x y → (∀ x' y', ¬ PlaceIn (S.segs t) q x' y') →
      ∃ g', delete S g (Range.new p q) = .ok g' ∧
        (∀ u v, PlaceIn (S.segs t) ⟨q.line + 1, 0⟩ u v → toStr g' = .ok (x ++ v) ∧ ∃ d, t = x ++ d ++ v) ∧
        ((∀ u v, ¬ PlaceIn (S.segs t) ⟨q.line + 1, 0⟩ u v) → toStr g' = .ok x) := by
  have none_of : ∀ r, (∀ x y, ¬ PlaceIn (S.segs t) r x y) → locate (S.segs t) r = none := by
    intro r hr
    rw [locate_eq_none]; intro a b hab he
    exact hr _ _ ⟨a, b, hab, rfl, rfl, he⟩
  constructor
  · intro hn
    obtain ⟨pre, post, ht, hrep, ha⟩ := id h
    obtain ⟨g', hd, hm⟩ := delete_rep (S := S) hrep _ (range_new_ok p q)
    rw [range_new_of_le hpq, ← ha, none_of p hn] at hm
    rw [hd, hm]
  · intro x y hp hq
    obtain ⟨a, b, hl, rfl, rfl⟩ := placeIn_iff.mp hp
    obtain ⟨g', hd, ht, _⟩ := h.delete (Range.new p q) (range_new_ok p q)
    rw [range_new_of_le hpq, deleteRange, hl] at ht
    simp only [afterEnd, none_of q hq] at ht
    refine ⟨g', hd, ?_, ?_⟩
    · intro u v huv
      obtain ⟨a', b', hl', rfl, rfl⟩ := placeIn_iff.mp huv
      rw [hl'] at ht
      refine ⟨ht, ?_⟩
      have hle : AtOrBefore p ⟨q.line + 1, 0⟩ := by unfold AtOrBefore at *; simp; omega
      obtain ⟨d, rfl, rfl⟩ := locate_mono hl hl' hle
      exact ⟨d.flatten, by rw [← S.join t, (locate_eq_some.mp hl).1]; simp⟩
    · intro hn
      rw [none_of _ hn] at ht
      simpa using ht

example : (do toStr (← delete Demo.seg demoG (Range.new ⟨0, 0⟩ ⟨0, 5⟩))) = .ok (Demo.s "xyz") := by decide +kernel
example : (do toStr (← delete Demo.seg demoG (Range.new ⟨1, 1⟩ ⟨1, 5⟩))) = .ok (Demo.s "é\nx") := by decide +kernel

/-- **C07.** `read` returns exactly the text between the two places, and `None` exactly when one of the
positions does not exist. -/
theorem C07_read (S : Segmenter) (g : GapBuffer) (t : Text) (p q : Position) (hpq : AtOrBefore p q) (h : Holds S g t) :
    (∀ x y x' y', PlaceIn (S.segs t) p x y → PlaceIn (S.segs t) q x' y' →
      ∃ m, read S g (Range.new p q) = .ok (some m) ∧ x' = x ++ m ∧ y = m ++ y') ∧
    (read S g (Range.new p q) = .ok none ↔
      (∀ x y, ¬ PlaceIn (S.segs t) p x y) ∨ (∀ x y, ¬ PlaceIn (S.segs t) q x y)) := by
  have hr := h.read (Range.new p q) (range_new_ok p q)
  rw [range_new_of_le hpq] at hr ⊢
  constructor
  · intro x y x' y' hp hq
    obtain ⟨a, b, hl, rfl, rfl⟩ := placeIn_iff.mp hp
    obtain ⟨a', b', hl', rfl, rfl⟩ := placeIn_iff.mp hq
    obtain ⟨d, rfl, rfl⟩ := locate_mono hl hl' hpq
    refine ⟨d.flatten, ?_, by simp, by simp⟩
    rw [hr]; simp only [readRange, hl, hl']; simp
  · have none_iff : ∀ r, (∀ x y, ¬ PlaceIn (S.segs t) r x y) ↔ locate (S.segs t) r = none := by
      intro r
      rw [locate_eq_none]
      constructor
      · intro hr a b hab he; exact hr _ _ ⟨a, b, hab, rfl, rfl, he⟩
      · rintro hr x y ⟨a, b, hab, _, _, he⟩; exact hr a b hab he
    rw [hr, none_iff, none_iff, readRange]
    cases hl : locate (S.segs t) p with
    | none => simp
    | some x =>
      cases hl' : locate (S.segs t) q with
      | none => simp
      | some y => simp

example : read Demo.seg demoG (Range.new ⟨1, 2⟩ ⟨0, 0⟩) = .ok (some (Demo.s "é\nxy")) := by decide +kernel

/-- **C08.** `in_bounds` holds exactly for the positions of the text. -/
theorem C08_in_bounds (S : Segmenter) (g : GapBuffer) (t : Text) (p : Position) (h : Holds S g t) :
    ∃ b, inBounds S g p = .ok b ∧ (b = true ↔ ∃ x y, PlaceIn (S.segs t) p x y) := by
  refine ⟨_, h.inBounds p, ?_⟩
  unfold exists?
  rw [Option.isSome_iff_exists]
  constructor
  · rintro ⟨⟨a, b⟩, hl⟩; exact ⟨_, _, placeIn_iff.mpr ⟨a, b, hl, rfl, rfl⟩⟩
  · rintro ⟨x, y, hp⟩
    obtain ⟨a, b, hl, _⟩ := placeIn_iff.mp hp
    exact ⟨_, hl⟩

/-- C08, text without carriage returns: the line exists and the offset is at most its number of clusters. -/
theorem C08_in_bounds_lines (S : Segmenter) (g : GapBuffer) (t : Text) (p : Position) (h : Holds S g t) (hcr : '\r' ∉ t) :
    ∃ b, inBounds S g p = .ok b ∧
      (b = true ↔ ∃ line, (splitNl t)[p.line]? = some line ∧ p.offset ≤ (S.segs line).length) :=
  ⟨_, h.inBounds p, exists_iff_line S hcr p.line p.offset⟩

example : inBounds Demo.seg demoG ⟨1, 3⟩ = .ok true ∧ inBounds Demo.seg demoG ⟨1, 4⟩ = .ok false := by decide +kernel

/-- **C09.** Two buffers holding the same text, with different gaps, capacities, stale bytes and
allocators, show the same results for every sequence of calls that does not fuse clusters; both
behave as the plain text does. -/
theorem C09_gap_unobservable (S : Segmenter) (A A' : Alloc) (g g' : GapBuffer) (t : Text) (cs : List Call)
    (h : Holds S g t) (h' : Holds S g' t) (hc : CleanCalls S.segs t cs) :
    ∃ g1 g1', run S A g cs = .ok ((runText S.segs t cs).1, g1) ∧ run S A' g' cs = .ok ((runText S.segs t cs).1, g1') ∧
      toStr g1 = .ok (runText S.segs t cs).2 ∧ toStr g1' = .ok (runText S.segs t cs).2 := by
  obtain ⟨g1, h1, k1⟩ := run_holds (A := A) h cs hc
  obtain ⟨g2, h2, k2⟩ := run_holds (A := A') h' cs hc
  exact ⟨g1, g2, h1, h2, k1.toStr, k2.toStr⟩

example : CleanCalls Demo.seg.segs (Demo.s "é\nxyz") [.insert (Demo.s "u\n") ⟨1, 0⟩, .delete ⟨2, 1⟩ ⟨0, 1⟩, .toStr] := by
  refine ⟨?_, ?_, trivial, trivial⟩
  · intro a b h
    rw [show locate (Demo.seg.segs (Demo.s "é\nxyz")) ⟨1, 0⟩ = some ([Demo.s "é", Demo.s "\n"], [Demo.s "x", Demo.s "y", Demo.s "z"]) by decide +kernel] at h
    obtain ⟨rfl, rfl⟩ := Prod.mk.inj (Option.some.inj h)
    decide +kernel
  · intro a b h
    rw [show locate (Demo.seg.segs (callText Demo.seg.segs (Demo.s "é\nxyz") (.insert (Demo.s "u\n") ⟨1, 0⟩)).2) (lo ⟨2, 1⟩ ⟨0, 1⟩)
      = some ([Demo.s "é"], [Demo.s "\n", Demo.s "u", Demo.s "\n", Demo.s "x", Demo.s "y", Demo.s "z"]) by decide +kernel] at h
    obtain ⟨rfl, rfl⟩ := Prod.mk.inj (Option.some.inj h)
    decide +kernel

/-- **C10.** Earlier positions name strictly earlier places, each cluster boundary has exactly one position, and
reading between two different in-bounds positions is never empty. -/
theorem C10_positions_ordered (S : Segmenter) (g : GapBuffer) (t : Text) (h : Holds S g t) :
    (∀ p q x y x' y', PlaceIn (S.segs t) p x y → PlaceIn (S.segs t) q x' y' → Before p q →
      ∃ m, m ≠ [] ∧ x' = x ++ m ∧ read S g (Range.new p q) = .ok (some m)) ∧
    (∀ p x y x' y', PlaceIn (S.segs t) p x y → PlaceIn (S.segs t) p x' y' → x = x' ∧ y = y') ∧
    (∀ a b, S.segs t = a ++ b → ∃ p, PlaceIn (S.segs t) p a.flatten b.flatten ∧ inBounds S g p = .ok true ∧
      ∀ q, PlaceIn (S.segs t) q a.flatten b.flatten → q = p) := by
  have strict : ∀ p q x y x' y', PlaceIn (S.segs t) p x y → PlaceIn (S.segs t) q x' y' → Before p q →
      ∃ m, m ≠ [] ∧ x' = x ++ m ∧ read S g (Range.new p q) = .ok (some m) := by
    intro p q x y x' y' hp hq hpq
    obtain ⟨m, hr, hx, hy⟩ := (C07_read S g t p q hpq.le h).1 x y x' y' hp hq
    refine ⟨m, ?_, hx, hr⟩
    rintro rfl
    obtain ⟨a, b, hl, rfl, rfl⟩ := placeIn_iff.mp hp
    obtain ⟨a', b', hl', rfl, rfl⟩ := placeIn_iff.mp hq
    obtain ⟨d, hd1, hd2⟩ := locate_mono hl hl' hpq.le
    have hd : d ≠ [] := by
      rintro rfl
      rw [List.append_nil] at hd1
      subst hd1
      have := (locate_eq_some.mp hl).2.symm.trans (locate_eq_some.mp hl').2
      rw [this] at hpq; exact Before.irrefl _ hpq
    obtain ⟨d0, d1, rfl⟩ := List.exists_cons_of_ne_nil hd
    have : d0 ≠ [] := S.nonempty t d0 (by rw [(locate_eq_some.mp hl).1, hd2]; simp)
    rw [hd1] at hx
    simp at hx
    exact this hx.1
  refine ⟨strict, ?_, ?_⟩
  · intro p x y x' y' hp hq
    obtain ⟨a, b, hl, rfl, rfl⟩ := placeIn_iff.mp hp
    obtain ⟨a', b', hl', rfl, rfl⟩ := placeIn_iff.mp hq
    rw [hl] at hl'
    obtain ⟨rfl, rfl⟩ := Prod.mk.inj (Option.some.inj hl')
    exact ⟨rfl, rfl⟩
  · intro a b hab
    have hp : PlaceIn (S.segs t) (endPos a) a.flatten b.flatten := ⟨a, b, hab, rfl, rfl, rfl⟩
    refine ⟨endPos a, hp, ?_, ?_⟩
    · rw [h.inBounds, exists?, locate_eq_some.mpr ⟨hab, rfl⟩]; rfl
    · intro q hq
      rcases before_trichotomy q (endPos a) with hlt | he | hlt
      · obtain ⟨m, hm, he, _⟩ := strict _ _ _ _ _ _ hq hp hlt
        exact absurd (by simpa using he) hm
      · exact he
      · obtain ⟨m, hm, he, _⟩ := strict _ _ _ _ _ _ hp hq hlt
        exact absurd (by simpa using he) hm

theorem advance_eq (a cs : List Text) : advance (endPos a) cs = endPos (a ++ cs) := by
  rw [endPos_append_eq]; rfl

/-- **C11.** After a non-fusing insert of `s` at `p`, reading from `p` to `p` advanced by `s` gives `s`, and every later
place of the text is found at its position shifted accordingly. -/
theorem C11_read_back (S : Segmenter) (A : Alloc) (g : GapBuffer) (t s x y : Text) (p : Position)
    (h : Holds S g t) (hp : PlaceIn (S.segs t) p x y)
    (hc : S.segs (x ++ s ++ y) = S.segs x ++ S.segs s ++ S.segs y) :
    ∃ g', insert S A g s p = .ok g' ∧
      read S g' (Range.new p (advance p (S.segs s))) = .ok (some s) ∧
      ∀ q u v, AtOrBefore p q → PlaceIn (S.segs t) q (x ++ u) v →
        PlaceIn (S.segs (x ++ s ++ y)) (advance p (S.segs s ++ S.segs u)) (x ++ s ++ u) v := by
  obtain ⟨g', hi, hh⟩ := C03_insert_again S A g t s x y p h hp hc
  obtain ⟨a, b, hab, rfl, rfl, hpa⟩ := hp
  have ha := S.cut_left hab
  have hb := S.cut_right hab
  have hs : S.segs (a.flatten ++ s ++ b.flatten) = a ++ S.segs s ++ b := by rw [hc, ha, hb]
  have hadv : advance p (S.segs s) = endPos (a ++ S.segs s) := by rw [← hpa, advance_eq]
  have hle : AtOrBefore p (advance p (S.segs s)) := by rw [hadv, ← hpa]; exact endPos_le_append _ _
  refine ⟨g', hi, ?_, ?_⟩
  · obtain ⟨m, hr, hx, _⟩ := (C07_read S g' _ p _ hle hh).1 a.flatten (s ++ b.flatten) (a.flatten ++ s) b.flatten
      ⟨a, S.segs s ++ b, by rw [hs]; simp, rfl, by simp [S.join], hpa⟩
      ⟨a ++ S.segs s, b, hs, by simp [S.join], rfl, hadv.symm⟩
    have : m = s := (List.append_cancel_left hx).symm
    rw [hr, this]
  · intro q u v hpq hq
    obtain ⟨a', b', hab', hu, rfl, hqa⟩ := hq
    obtain ⟨d, rfl, rfl⟩ := split_mono (hab.symm.trans hab') (by rw [hpa, hqa]; exact hpq)
    rw [List.flatten_append] at hu
    have hud : u = d.flatten := List.append_cancel_left hu
    subst hud
    have hd : S.segs d.flatten = d := S.cut_left hb
    refine ⟨a ++ S.segs s ++ d, b', by rw [hs]; simp, by simp [S.join], rfl, ?_⟩
    rw [hd, ← hpa, advance_eq, List.append_assoc]

example : (do read Demo.seg (← insert Demo.seg Demo.loose demoG (Demo.s "u\nvé") ⟨1, 1⟩) (Range.new ⟨1, 1⟩ (advance ⟨1, 1⟩ (Demo.seg.segs (Demo.s "u\nvé")))))
    = .ok (some (Demo.s "u\nvé")) := by decide +kernel

/-- **C45.** From every reachable state (whatever clusters were fused or split before), `insert` either leaves the text
unchanged or inserts the string contiguously, and `delete` removes one contiguous (possibly empty) piece. -/
theorem C45_contiguous (S : Segmenter) (A : Alloc) (g : GapBuffer) (h : Reachable S A g) :
    ∃ u, toStr g = .ok u ∧
      (∀ s p, ∃ g', insert S A g s p = .ok g' ∧
        (toStr g' = .ok u ∨ ∃ x y, u = x ++ y ∧ toStr g' = .ok (x ++ s ++ y))) ∧
      (∀ p q, ∃ g' x d y, delete S g (Range.new p q) = .ok g' ∧ u = x ++ d ++ y ∧ toStr g' = .ok (x ++ y)) := by
  obtain ⟨pre, post, hr⟩ := reachable_rep h
  refine ⟨pre ++ post, hr.toStr, ?_, ?_⟩
  · intro s p
    obtain ⟨o, g', pre', post', hcall, hr', he⟩ := call_rep (S := S) (A := A) hr (.insert s p)
    obtain ⟨g2, _, _, hi, _⟩ := insert_rep (S := S) (A := A) hr s p
    have : g2 = g' := by
      simp only [call, hi, Except.ok_bind'] at hcall
      exact (Prod.mk.inj (Except.ok.inj hcall)).2
    subst this
    refine ⟨g2, hi, ?_⟩
    rw [hr'.toStr]
    rcases he with he | ⟨x, y, h1, h2⟩
    · exact Or.inl (by rw [he])
    · exact Or.inr ⟨x, y, h1, by rw [h2]⟩
  · intro p q
    obtain ⟨o, g', pre', post', hcall, hr', x, d, y, he1, he2⟩ := call_rep (S := S) (A := A) hr (.delete p q)
    obtain ⟨g2, hd, _⟩ := delete_rep (S := S) hr (Range.new p q) (range_new_ok p q)
    have : g2 = g' := by
      simp only [call, hd, Except.ok_bind'] at hcall
      exact (Prod.mk.inj (Except.ok.inj hcall)).2
    subst this
    exact ⟨g2, x, d, y, hd, he1, by rw [hr'.toStr, he2]⟩

/-- A reachable state in which the gap splits the cluster "é". -/
example : ∃ g, Reachable Demo.seg Demo.loose g ∧ g.gapStart = 1 ∧ toStr g = .ok (Demo.s "e\u0301x") :=
  ⟨_, ⟨0, Demo.s "\u0301x", [.insert (Demo.s "e") ⟨0, 0⟩], _, rfl⟩, by decide +kernel, by decide +kernel⟩

end Scribe.Props
