import Verif.Proofs.Position
import Verif.Proofs.Lines
import Verif.Demo
/-!
# Properties C32–C34: positions, ranges, line ranges, distances
-/
namespace Scribe.Props
open Spec

/-- **C32.** `partial_cmp` on positions is a total order: antisymmetric and consistent with `==`, transitive, total,
and it is the lexicographic order. -/
theorem C32_position_order (a b c : Position) :
    (a.cmp b = .eq ↔ a = b) ∧ (a.cmp b = .lt ↔ Before a b) ∧ (a.cmp b = .gt ↔ Before b a) ∧
    (a.cmp b = (b.cmp a).swap) ∧ (a.cmp b = .lt → b.cmp c = .lt → a.cmp c = .lt) ∧
    (a.cmp b = .lt ∨ a.cmp b = .eq ∨ a.cmp b = .gt) := by
  have hlt : ∀ a b : Position, a.cmp b = .lt ↔ Before a b := fun a b => by
    rw [← ltb_iff]; unfold Position.ltb; simp
  have hgt : ∀ a b : Position, a.cmp b = .gt ↔ Before b a := fun a b => by
    rw [← gtb_iff]; unfold Position.gtb; simp
  refine ⟨?_, hlt a b, hgt a b, ?_, ?_, ?_⟩
  · cases a; cases b
    unfold Position.cmp
    simp only [Position.mk.injEq]
    repeat' split
    all_goals simp
    all_goals omega
  · unfold Position.cmp
    repeat' split
    all_goals simp
    all_goals omega
  · rw [hlt, hlt, hlt]; exact Before.trans
  · cases a.cmp b <;> simp

example : (Position.mk 3 9).cmp ⟨4, 0⟩ = .lt ∧ (Position.mk 4 0).cmp ⟨4, 7⟩ = .lt := by decide

/-- **C32.** `Range::new` orders its ends whatever order they come in, keeps both positions, and
`includes` is half open. -/
theorem C32_range (p q x : Position) :
    AtOrBefore (Range.new p q).start (Range.new p q).stop ∧
    (((Range.new p q).start = p ∧ (Range.new p q).stop = q) ∨ ((Range.new p q).start = q ∧ (Range.new p q).stop = p)) ∧
    Range.new p q = Range.new q p ∧
    ((Range.new p q).includes x = true ↔ AtOrBefore (Range.new p q).start x ∧ Before x (Range.new p q).stop) := by
  refine ⟨range_new_ok p q, ?_, ?_, ?_⟩
  · rw [range_new]; unfold lo hi; split <;> simp
  · rw [range_new, range_new]; unfold lo hi
    split <;> split
    · cases p; cases q; simp_all; omega
    · rfl
    · rfl
    · cases p; cases q; simp_all; omega
  · unfold Range.includes
    rw [Bool.and_eq_true, geb_iff, ltb_iff]

example : (Range.new ⟨2, 1⟩ ⟨1, 5⟩).includes ⟨1, 9⟩ = true ∧ (Range.new ⟨2, 1⟩ ⟨1, 5⟩).includes ⟨2, 1⟩ = false := by decide

/-- **C33.** `LineRange::new` orders its ends, `includes` is half open, and the two conversions cover exactly the
positions on the lines `start..stop` and `start..=stop`. -/
theorem C33_line_range (s e l : Nat) (p : Position) :
    let r := LineRange.new s e
    r.start ≤ r.stop ∧ r.start = min s e ∧ r.stop = max s e ∧
    (r.includes l = true ↔ r.start ≤ l ∧ l < r.stop) ∧
    (r.toRange.includes p = true ↔ r.start ≤ p.line ∧ p.line < r.stop) ∧
    (r.toRange.includes p = r.includes p.line) ∧
    (r.toInclusiveRange.includes p = true ↔ r.start ≤ p.line ∧ p.line ≤ r.stop) ∧
    (r.toInclusiveRange.start = ⟨r.start, 0⟩ ∧ r.toInclusiveRange.stop = ⟨r.stop + 1, 0⟩) := by
  intro r
  have h1 : r.start = min s e ∧ r.stop = max s e := by
    show (LineRange.new s e).start = _ ∧ (LineRange.new s e).stop = _
    unfold LineRange.new; split <;> simp <;> omega
  have hle : r.start ≤ r.stop := by omega
  have hR : r.toRange = ⟨⟨r.start, 0⟩, ⟨r.stop, 0⟩⟩ := range_new_of_le (by unfold AtOrBefore; simp; omega)
  have hI : r.toInclusiveRange = ⟨⟨r.start, 0⟩, ⟨r.stop + 1, 0⟩⟩ := range_new_of_le (by unfold AtOrBefore; simp; omega)
  have hinc : ∀ l, (r.includes l = true ↔ r.start ≤ l ∧ l < r.stop) := by
    intro l; unfold LineRange.includes; simp
  have htr : (r.toRange.includes p = true ↔ r.start ≤ p.line ∧ p.line < r.stop) := by
    rw [hR]; unfold Range.includes
    rw [Bool.and_eq_true, geb_iff, ltb_iff]
    unfold AtOrBefore Before; simp; omega
  refine ⟨hle, h1.1, h1.2, hinc l, htr, ?_, ?_, by rw [hI]; exact ⟨rfl, rfl⟩⟩
  · rw [Bool.eq_iff_iff, htr, hinc]
  · rw [hI]; unfold Range.includes
    rw [Bool.and_eq_true, geb_iff, ltb_iff]
    unfold AtOrBefore Before; simp; omega

example : (LineRange.new 7 3).toInclusiveRange = ⟨⟨3, 0⟩, ⟨8, 0⟩⟩ := by decide

theorem ofStr_line {l : Text} (h : '\n' ∉ l) : Distance.ofStr l = ⟨0, blen l⟩ := by
  unfold Distance.ofStr; rw [splitNl_no_nl h, countNl_zero h]; rfl

theorem ofStr_lines {l r : Text} (h : '\n' ∉ l) : Distance.ofStr (l ++ '\n' :: r) = ⟨(Distance.ofStr r).lines + 1, (Distance.ofStr r).offset⟩ := by
  unfold Distance.ofStr; rw [splitNl_append h, countNl_append, countNl_zero h, countNl_nl]
  rw [List.getLast?_cons_of_ne_nil (splitNl_ne_nil r)]; simp

/-- **C34.** `+` and `+=` agree, never move backwards, and distances of concatenated strings compose. -/
theorem C34_distance (p : Position) (d : Distance) (a b : Text) :
    p.add d = p.addAssign d ∧ AtOrBefore p (p.add d) ∧
    p.add (.ofStr (a ++ b)) = (p.add (.ofStr a)).add (.ofStr b) ∧
    (Distance.ofStr a).lines = countNl a ∧ p.add (.ofStr []) = p := by
  refine ⟨rfl, ?_, ?_, rfl, ?_⟩
  · unfold Position.add AtOrBefore; simp only; split <;> omega
  · induction a using lines_induction generalizing p with
    | h1 l h =>
      rw [ofStr_line h]
      rcases line_cases b with hb | ⟨l', r, hb, rfl⟩
      · have : '\n' ∉ l ++ b := by simp [h, hb]
        rw [ofStr_line this, ofStr_line hb]
        unfold Position.add; simp [Nat.add_assoc]
      · have : '\n' ∉ l ++ l' := by simp [h, hb]
        rw [← List.append_assoc, ofStr_lines this, ofStr_lines hb]
        unfold Position.add; simp
    | h2 l r h ih =>
      rw [List.append_assoc, List.cons_append, ofStr_lines h, ofStr_lines h]
      have := ih ⟨p.line + 1, 0⟩
      unfold Position.add at this ⊢
      simp only [Position.mk.injEq, gt_iff_lt, Nat.zero_lt_succ, if_true] at this ⊢
      refine ⟨by omega, ?_⟩
      have h2 := this.2
      split at h2 <;> split at h2 <;> simp_all
  · unfold Position.add; simp [Distance.ofStr, countNl, splitNl]

theorem endPos_chars (s : Text) : endPos (s.map fun c => [c]) = ⟨countNl s, ((splitNl s).getLast?.map List.length).getD 0⟩ := by
  induction s using lines_induction with
  | h1 l h =>
    rw [endPos_line_zero, splitNl_no_nl h, countNl_zero h]
    · simp
    · simpa using h
  | h2 l r h ih =>
    rw [List.map_append, List.map_cons, endPos_after_nl (by simpa using h), ih, splitNl_append h, countNl_append,
      countNl_zero h, countNl_nl, List.getLast?_cons_of_ne_nil (splitNl_ne_nil r)]
    simp

theorem splitNl_mem {s l : Text} (h : l ∈ splitNl s) : ∀ c ∈ l, c ∈ s := by
  induction s using lines_induction generalizing l with
  | h1 l' h' => rw [splitNl_no_nl h'] at h; simp at h; subst h; exact fun c hc => hc
  | h2 l' r h' ih =>
    rw [splitNl_append h'] at h
    rcases List.mem_cons.mp h with rfl | h
    · intro c hc; simp [hc]
    · intro c hc; have := ih h c hc; simp [this]

theorem blen_ascii {s : Text} (h : ∀ c ∈ s, c.utf8Size = 1) : blen s = s.length := by
  induction s with
  | nil => rfl
  | cons c s ih =>
    rw [blen_cons, ih (fun x hx => h x (by simp [hx])), h c (by simp)]; simp; omega

/-- **C34.** When every character of `s` is a one-byte cluster of its own, `p + Distance::of_str(s)` is
the position at which text inserted at `p` ends (`advance`, as in C11). -/
theorem C34_distance_is_extent (S : Segmenter) (p : Position) (s : Text) (h1 : ∀ c ∈ s, c.utf8Size = 1)
    (h2 : S.segs s = s.map fun c => [c]) : p.add (.ofStr s) = advance p (S.segs s) := by
  have hl : (Distance.ofStr s).offset = ((splitNl s).getLast?.map List.length).getD 0 := by
    unfold Distance.ofStr
    cases hg : (splitNl s).getLast? with
    | none => rfl
    | some l =>
      simp only [Option.map_some, Option.getD_some]
      exact blen_ascii (fun c hc => h1 c (splitNl_mem (List.mem_of_getLast? hg) c hc))
  unfold Position.add advance
  simp only
  rw [h2, endPos_chars, hl]
  show (⟨p.line + countNl s, if countNl s > 0 then _ else _⟩ : Position) = _
  by_cases h : countNl s = 0
  · simp [h]
  · simp [h]

example : Demo.seg.segs (Demo.s "ab\ncd") = (Demo.s "ab\ncd").map (fun c => [c]) ∧ (Position.mk 2 5).add (.ofStr (Demo.s "ab\ncd")) = ⟨3, 2⟩ := by
  decide +kernel

end Scribe.Props
