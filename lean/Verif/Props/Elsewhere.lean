import Verif.Props.FindReplace
import Verif.Props.Batch
/-!
# C86, where characters have more than one byte
-/
namespace Scribe.Props
open Spec Buf
variable {S : Segmenter} {P : Text → Prop}

theorem count_newlines {cs : List Text} (h : ∀ c ∈ cs, '\n' ∈ c → c = ['\n']) : cs.flatten.count '\n' = cs.count ['\n'] := by
  induction cs with
  | nil => rfl
  | cons c cs ih =>
    rw [List.flatten_cons, List.count_append, List.count_cons, ih fun x hx => h x (by simp [hx])]
    by_cases hc : '\n' ∈ c
    · rw [h c (by simp) hc]; simp; omega
    · rw [List.count_eq_zero.mpr hc, if_neg (by intro e; simp only [beq_iff_eq] at e; exact hc (by rw [e]; simp))]; omega

theorem count_le_bytes {cs : List Text} (h : ∀ c ∈ cs, c ≠ []) : cs.length ≤ blen cs.flatten ∧ ((∃ c ∈ cs, 1 < blen c) → cs.length < blen cs.flatten) := by
  induction cs with
  | nil => simp
  | cons c cs ih =>
    obtain ⟨i1, i2⟩ := ih fun x hx => h x (by simp [hx])
    have := blen_pos (h c (by simp))
    rw [List.flatten_cons, blen_append, List.length_cons]
    refine ⟨by omega, ?_⟩
    rintro ⟨x, hx, hl⟩
    rcases List.mem_cons.mp hx with rfl | hx
    · omega
    · have := i2 ⟨x, hx, hl⟩; omega

theorem endPos_plain {cs : List Text} (h : ['\n'] ∉ cs) : endPos cs = ⟨0, cs.length⟩ := by
  induction cs using List.reverseRecOn with
  | nil => rfl
  | append_singleton cs c ih =>
    rw [endPos_concat, ih fun hc => h (by simp [hc]), Spec.step, if_neg (fun hc => h (by simp [hc]))]
    simp

/-- The same line, `n` columns on. -/
theorem columns_on {a o : List Text} {n : Nat} (h : endPos (a ++ o) = ⟨(endPos a).line, (endPos a).offset + n⟩) : o.length = n := by
  rw [endPos_append_eq] at h
  have hl : (endPos o).line = 0 := by
    by_contra hc
    rw [if_neg hc, Position.mk.injEq] at h
    omega
  rw [if_pos hl, Position.mk.injEq] at h
  have : ['\n'] ∉ o := List.count_eq_zero.mp hl
  rw [endPos_plain this] at h
  have := h.2
  simp only at this
  omega

/-- C86: with a character of more than one byte before it on its line, the result of `search` is a place to the right of the occurrence. The same edits made there (if it and its end
exist) keep the beginning `z` of the occurrence and replace as many clusters after that. -/
theorem C86_elsewhere (hP : Closed S.segs P) (A : Alloc) (b : Buf) (d : Doc) (u w needle y r : Text) (ps : List Position)
    (h : Reached S A b d) (ht : b.data.toStr = .ok (u ++ w ++ (needle ++ y))) (hu : u = [] ∨ u.getLast? = some '\n') (hw : '\n' ∉ w)
    (ou : Over S.segs P u) (ow : Over S.segs P w) (oy : Over S.segs P (needle ++ y)) (hr : Over S.segs P r)
    (hn : needle ≠ []) (hnl : '\n' ∉ needle) (hcr : '\r' ∉ needle) (hs : b.search needle = .ok ps) (hm : ∃ c ∈ S.segs w, 1 < blen c) :
    ∃ p k, p ∈ ps ∧ endPos (S.segs (u ++ w)) = ⟨p.line, k⟩ ∧ k < p.offset ∧
      (exists? S.segs (u ++ w ++ (needle ++ y)) p = true → exists? S.segs (u ++ w ++ (needle ++ y)) ⟨p.line, p.offset + needle.length⟩ = true →
        ∃ z o v b', needle ++ y = z ++ o ++ v ∧ z ≠ [] ∧ (S.segs o).length = needle.length ∧
          execAll S A b (change needle.length r p) = .ok b' ∧ b'.data.toStr = .ok (u ++ w ++ z ++ r ++ v)) := by
  have only : ∀ t, Over S.segs P t → ∀ c ∈ S.segs t, '\n' ∈ c → c = ['\n'] := by
    intro t ho c hc hx
    rcases S.newline t c hc hx with e | e
    · exact e
    · exact absurd (e ▸ ho c hc) hP.noCrlf
  have huw : S.segs (u ++ w) = S.segs u ++ S.segs w := over_append hP ou ow
  have ouw : Over S.segs P (u ++ w) := fun c hc => by rw [huw] at hc; exact (List.mem_append.mp hc).elim (ou c) (ow c)
  have hall : S.segs (u ++ w ++ (needle ++ y)) = S.segs (u ++ w) ++ S.segs (needle ++ y) := over_append hP ouw oy
  have hpw : endPos (S.segs w) = ⟨0, (S.segs w).length⟩ := endPos_plain fun hc => hw (by rw [← S.join w]; exact List.mem_flatten.mpr ⟨_, hc, by simp⟩)
  have hpu : endPos (S.segs u) = ⟨u.count '\n', 0⟩ := by
    have hl : (endPos (S.segs u)).line = u.count '\n' := by
      conv_rhs => rw [← S.join u]
      exact (count_newlines (only u ou)).symm
    have ho : (endPos (S.segs u)).offset = 0 := by
      rcases List.eq_nil_or_concat (S.segs u) with e | ⟨cs, c, e⟩
      · rw [e]; rfl
      · have hcne : c ≠ [] := S.nonempty u c (by rw [e]; simp)
        have hlast : u.getLast? = c.getLast? := by
          conv_lhs => rw [← S.join u, e]
          rw [List.concat_eq_append, List.flatten_append, List.getLast?_append]
          simp only [List.flatten_cons, List.flatten_nil, List.append_nil]
          rw [List.getLast?_eq_some_getLast hcne]; rfl
        rcases hu with hu | hu
        · rw [hu, S.segs_nil] at e
          exact absurd (congrArg List.length e) (by simp)
        · rw [hlast] at hu
          have := only u ou c (by rw [e]; simp) (List.mem_of_getLast? hu)
          rw [e, List.concat_eq_append, endPos_concat, this]
          simp [Spec.step]
    rw [← hl, ← ho]
  have hpos : endPos (S.segs (u ++ w)) = ⟨u.count '\n', (S.segs w).length⟩ := by
    rw [huw, endPos_append_eq, hpw, hpu]; simp
  obtain ⟨r', h1, -, h3⟩ := C30_search_text b _ needle ht hn hnl hcr
  obtain rfl := Except.ok.inj (h1.symm.trans hs)
  have hlt := (count_le_bytes (S.nonempty w)).2 hm
  rw [S.join] at hlt
  refine ⟨⟨u.count '\n', blen w⟩, (S.segs w).length, (h3 _).mpr ⟨u, w, y, by simp, hu, hw, rfl, rfl⟩, hpos, hlt, fun e1 e2 => ?_⟩
  obtain ⟨⟨a, a'⟩, l1⟩ := Option.isSome_iff_exists.mp e1
  obtain ⟨⟨c, c'⟩, l2⟩ := Option.isSome_iff_exists.mp e2
  obtain ⟨j1, p1⟩ := locate_eq_some.mp l1
  obtain ⟨j2, p2⟩ := locate_eq_some.mp l2
  dsimp only at p2
  -- the place is after the beginning of the occurrence
  have hz : ∃ z, a = S.segs (u ++ w) ++ z ∧ z ≠ [] ∧ S.segs (needle ++ y) = z ++ a' := by
    rw [hall] at j1
    rcases List.append_eq_append_iff.mp j1 with ⟨z, k1, k2⟩ | ⟨z, k1, k2⟩
    · refine ⟨z, k1, ?_, k2⟩
      rintro rfl
      rw [List.append_nil] at k1
      rw [k1, hpos, Position.mk.injEq] at p1
      omega
    · exfalso
      by_cases hzn : z = []
      · subst hzn
        rw [List.append_nil] at k1
        rw [← k1, hpos, Position.mk.injEq] at p1
        omega
      · have := endPos_lt_append a hzn
        rw [← k1, hpos, p1] at this
        unfold Before at this
        simp only at this
        omega
  obtain ⟨z, rfl, hz0, hz1⟩ := hz
  have ho : ∃ o, c = S.segs (u ++ w) ++ z ++ o ∧ a' = o ++ c' := by
    rcases List.append_eq_append_iff.mp (j1.symm.trans j2) with ⟨o, k1, k2⟩ | ⟨o, k1, k2⟩
    · exact ⟨o, k1, k2⟩
    · exfalso
      by_cases hon : o = []
      · subst hon
        rw [List.append_nil] at k1
        rw [← k1, p1, Position.mk.injEq] at p2
        have := List.length_pos_iff.mpr hn
        omega
      · have := endPos_lt_append c hon
        rw [← k1, p1, p2] at this
        unfold Before at this
        dsimp only at this
        omega
  obtain ⟨o, rfl, rfl⟩ := ho
  have hlen : o.length = needle.length := columns_on (by rw [p2, p1])
  have hp : ∀ x ∈ S.segs (u ++ w) ++ (z ++ (o ++ c')), P x := fun x hx => by
    rcases List.mem_append.mp hx with hx | hx
    · exact ouw x hx
    · rw [← hz1] at hx; exact oy x hx
  have seg : ∀ cs : List Text, (∀ x ∈ cs, x ∈ S.segs (u ++ w) ++ (z ++ (o ++ c'))) → S.segs cs.flatten = cs ∧ Over S.segs P cs.flatten := fun cs hc => by
    have e := hP.apart cs fun x hx => hp x (hc x hx)
    exact ⟨e, fun x hx => hp x (hc x (by rwa [e] at hx))⟩
  obtain ⟨sa, oa⟩ := seg (S.segs (u ++ w) ++ z) (by simp only [List.mem_append]; tauto)
  obtain ⟨so, oo⟩ := seg o (by simp only [List.mem_append]; tauto)
  obtain ⟨sc, oc⟩ := seg c' (by simp only [List.mem_append]; tauto)
  obtain ⟨sao, -⟩ := seg (S.segs (u ++ w) ++ z ++ o) (by simp only [List.mem_append]; tauto)
  have fa : (S.segs (u ++ w) ++ z).flatten = u ++ w ++ z.flatten := by rw [List.flatten_append, S.join]
  have fy : needle ++ y = z.flatten ++ o.flatten ++ c'.flatten := by
    rw [← S.join (needle ++ y), hz1]; simp
  obtain ⟨b', f1, f2⟩ := C88_backward hP A b d [⟨(S.segs (u ++ w) ++ z).flatten, o.flatten, r⟩] c'.flatten h
    (by rw [ht, fy]; simp [source, fa]) (by
      intro q hq
      rw [List.mem_singleton] at hq
      subst hq
      exact ⟨oa, oo, hr⟩) oc
  refine ⟨z.flatten, o.flatten, c'.flatten, b', fy, ?_, by rw [so, hlen], ?_, ?_⟩
  · intro hc
    obtain ⟨x, xs, rfl⟩ := List.exists_cons_of_ne_nil hz0
    have hx : x ≠ [] := S.nonempty (needle ++ y) x (by rw [hz1]; simp)
    rw [List.flatten_cons, List.append_eq_nil_iff] at hc
    exact hx hc.1
  · rw [← f1]
    simp only [backward, swap, List.nil_append, change]
    rw [sa, p1, ← List.flatten_append, sao, p2]
  · rw [f2]; simp [target, fa]

/-- The hypotheses, in a text with an accent on the line: the result is one column too far, and "c" is replaced instead of "b". -/
example : (do
    let b := Buf.fromContent Demo.tight 0 (Demo.s "q\néabc")
    let ps ← b.search (Demo.s "b")
    let b ← execAll Demo.seg Demo.tight b (change 1 (Demo.s "x") ⟨1, 3⟩)
    return (ps, ← b.data.toStr)) = Except.ok (ε := Panic) ([⟨1, 3⟩], Demo.s "q\néabx") ∧
    (∃ c ∈ Demo.seg.segs (Demo.s "éa"), 1 < blen c) ∧ exists? Demo.seg.segs (Demo.s "q\néabc") ⟨1, 3⟩ = true ∧ exists? Demo.seg.segs (Demo.s "q\néabc") ⟨1, 4⟩ = true := by
  refine ⟨by decide +kernel, ⟨Demo.s "é", by decide +kernel, by decide +kernel⟩, by decide +kernel, by decide +kernel⟩

end Scribe.Props
