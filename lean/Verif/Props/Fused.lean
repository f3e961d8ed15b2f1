import Verif.Spec.Fused
import Verif.Props.Findings
import Verif.Props.Zipper
import Verif.Proofs.Closed
/-!
# Property C55: what happens when an edit merges clusters

Why C09 and C12 exclude such edits.
-/
namespace Scribe.Props
open Spec Buf

theorem spare_grant (n k size m : Nat) : (Alloc.spare n).grant k size m = m + n := by simp [Alloc.grant, Alloc.spare]

/-- **C55.** Without the condition that edits do not merge clusters, C09 fails: what the calls do depends on how much memory the allocator happened to
give. A text starts with a mark `m` that merges with the inserted `s`; after that the next insertion, at offset 2, puts `q` before or after the cluster `r`,
although the contents and the calls are the same. -/
theorem C55_gap_observable (S : Segmenter) (s m r q : Text) (h1 : S.segs s = [s]) (h2 : S.segs (m ++ r) = [m, r])
    (h3 : S.segs (s ++ m ++ r) = [s ++ m, r]) (hn : '\n' ∉ s ++ m ++ r) (hq : q ≠ []) :
    let t := m ++ r
    let calls := [GapBuffer.Call.insert s ⟨0, 0⟩, .toStr, .insert q ⟨0, 2⟩, .toStr]
    (GapBuffer.run S (Alloc.spare 0) (GapBuffer.new (Alloc.spare 0) 0 t) calls).map (·.1) = .ok [.done, .text (s ++ m ++ r), .done, .text (s ++ m ++ r ++ q)] ∧
    (GapBuffer.run S (Alloc.spare (blen s + blen q)) (GapBuffer.new (Alloc.spare (blen s + blen q)) 0 t) calls).map (·.1) =
      .ok [.done, .text (s ++ m ++ r), .done, .text (s ++ m ++ q ++ r)] := by
  intro t calls
  have hs : s ≠ [] := S.nonempty s s (by rw [h1]; simp)
  have nl : ∀ {cs : List Text}, (∀ c ∈ cs, ∃ x y, s ++ m ++ r = x ++ c ++ y) → endPos cs = ⟨0, cs.length⟩ := by
    intro cs hc
    refine endPos_line_zero fun hin => ?_
    obtain ⟨x, y, he⟩ := hc _ hin
    exact hn (by rw [he]; simp)
  have l0 : ∀ cs : List Text, locate cs ⟨0, 0⟩ = some ([], cs) := fun cs => locate_eq_some.mpr ⟨rfl, rfl⟩
  have la : locate [s ++ m, r] ⟨0, 2⟩ = some ([s ++ m, r], []) := locate_eq_some.mpr ⟨rfl, nl (by
    simp only [List.mem_cons, List.not_mem_nil, or_false, forall_eq_or_imp, forall_eq]
    exact ⟨⟨[], r, by simp⟩, ⟨s ++ m, [], by simp⟩⟩)⟩
  have lb : locate [s, m, r] ⟨0, 2⟩ = some ([s, m], [r]) := locate_eq_some.mpr ⟨rfl, nl (by
    simp only [List.mem_cons, List.not_mem_nil, or_false, forall_eq_or_imp, forall_eq]
    exact ⟨⟨[], m ++ r, by simp⟩, ⟨s, r, by simp⟩⟩)⟩
  have bs := blen_pos hs
  have bq := blen_pos hq
  constructor
  · obtain ⟨g, h, -⟩ := C67_zipper S (Alloc.spare 0) 0 (m ++ r) [.insert s ⟨0, 0⟩, .toStr, .insert q ⟨0, 2⟩, .toStr]
    rw [show GapBuffer.run _ _ (GapBuffer.new _ _ t) calls = _ from h]
    have e0 : (Zip.mk (m ++ r) [] (blen (m ++ r) + 0) 1).reserve (Alloc.spare 0).grant (blen s) = ⟨m ++ r, [], blen (m ++ r) + blen s, 2⟩ := by
      rw [Zip.reserve, if_neg (by simp only [Zip.room, blen_nil]; omega), spare_grant]; simp
    have e1 : (Zip.mk s (m ++ r) (blen (m ++ r) + blen s) 2).reserve (Alloc.spare 0).grant (blen q) = ⟨s ++ (m ++ r), [], blen (m ++ r) + blen s + blen q, 3⟩ := by
      rw [Zip.reserve, if_neg (by simp only [Zip.room]; omega), spare_grant]; simp
    have h3' : S.segs (s ++ (m ++ r)) = [s ++ m, r] := by rw [← List.append_assoc]; exact h3
    simp only [spare_grant, Nat.add_zero] at e0 ⊢
    simp only [Zip.run, Zip.call, e0, Zip.clusters, h2, S.segs_nil, List.append_nil, l0, List.flatten_nil, List.nil_append, List.flatten_cons, Nat.zero_add]
    simp [-blen_append, e1, h3', la, Except.map]
  · obtain ⟨g, h, -⟩ := C67_zipper S (Alloc.spare (blen s + blen q)) 0 (m ++ r) [.insert s ⟨0, 0⟩, .toStr, .insert q ⟨0, 2⟩, .toStr]
    rw [show GapBuffer.run _ _ (GapBuffer.new _ _ t) calls = _ from h]
    have e0 : (Zip.mk (m ++ r) [] (blen (m ++ r) + (0 + (blen s + blen q))) 1).reserve (Alloc.spare (blen s + blen q)).grant (blen s) =
        ⟨m ++ r, [], blen (m ++ r) + (0 + (blen s + blen q)), 1⟩ := by
      rw [Zip.reserve, if_pos (by simp only [Zip.room, blen_nil]; omega)]
    have e1 : (Zip.mk s (m ++ r) (blen (m ++ r) + (0 + (blen s + blen q))) 1).reserve (Alloc.spare (blen s + blen q)).grant (blen q) =
        ⟨s, m ++ r, blen (m ++ r) + (0 + (blen s + blen q)), 1⟩ := by
      rw [Zip.reserve, if_pos (by simp only [Zip.room]; omega)]
    simp only [spare_grant, Nat.zero_add] at e0 ⊢
    simp only [Zip.run, Zip.call, e0, Zip.clusters, h2, S.segs_nil, List.append_nil, l0, List.flatten_nil, List.nil_append, List.flatten_cons, Nat.zero_add]
    simp only [Nat.zero_add] at e1
    simp [-blen_append, e1, h1, h2, lb, Except.map]

/-- "e" put before an accent, then "q" at offset 2: the two results. -/
example : (GapBuffer.run Demo.seg Demo.tight (GapBuffer.new Demo.tight 0 (Demo.s "\u0301x"))
    [.insert (Demo.s "e") ⟨0, 0⟩, .insert (Demo.s "q") ⟨0, 2⟩, .toStr]).map (·.1) = .ok [.done, .done, .text (Demo.s "e\u0301xq")] := by decide +kernel
example : (GapBuffer.run Demo.seg Demo.loose (GapBuffer.new Demo.loose 0 (Demo.s "\u0301x"))
    [.insert (Demo.s "e") ⟨0, 0⟩, .insert (Demo.s "q") ⟨0, 2⟩, .toStr]).map (·.1) = .ok [.done, .done, .text (Demo.s "e\u0301qx")] := by decide +kernel
example : Demo.seg.segs (Demo.s "e") = [Demo.s "e"] ∧ Demo.seg.segs (Demo.s "\u0301x") = [Demo.s "\u0301", Demo.s "x"] ∧
    Demo.seg.segs (Demo.s "e\u0301x") = [Demo.s "e\u0301", Demo.s "x"] := by decide +kernel

theorem endPos_fused {init : List Text} {last s : Text} (h1 : last ≠ ['\n']) (h2 : last ++ s ≠ ['\n']) :
    endPos (init ++ [last ++ s]) = endPos (init ++ [last]) := by
  rw [endPos_concat, endPos_concat, step, step, if_neg h1, if_neg h2]

theorem holds_insert_rep {S : Segmenter} {A : Alloc} {g : GapBuffer} {t : Text} {p : Position} {x y : List Text} (h : Holds S g t) (s : Text)
    (hl : locate (S.segs t) p = some (x, y)) : ∃ g', GapBuffer.insert S A g s p = .ok g' ∧ Rep g' (x.flatten ++ s) y.flatten := by
  obtain ⟨pre, post, rfl, hr, ha⟩ := h
  obtain ⟨g', pre', post', hi, hc, hm⟩ := GapBuffer.insert_rep (S := S) (A := A) hr s p
  have key : S.segs pre' ++ S.segs post' = S.segs (pre ++ post) := by
    rcases hc with ⟨_, rfl, rfl⟩ | ⟨_, rfl, rfl⟩
    · exact ha.symm
    · simp
  rw [key, hl] at hm
  exact ⟨g', hi, hm⟩

/-- What survives a deletion that ends one offset further: everything but the next cluster, be it a newline or not. -/
theorem afterEnd_one (a y : List Text) : afterEnd (a ++ y) ⟨(endPos a).line, (endPos a).offset + 1⟩ = y.drop 1 := by
  cases y with
  | nil =>
    have hn : ∀ q, Before (endPos a) q → locate a q = none := by
      intro q hq
      refine locate_eq_none.mpr fun u v huv he => ?_
      have := endPos_le_append u v
      rw [← huv, he] at this
      exact Before.irrefl _ (hq.trans_le this)
    unfold afterEnd
    rw [List.append_nil, hn _ (by unfold Before; simp), hn _ (by unfold Before; simp)]
    rfl
  | cons c y =>
    by_cases hc : c = ['\n']
    · subst hc
      have he : endPos (a ++ [['\n']]) = ⟨(endPos a).line + 1, 0⟩ := by rw [endPos_concat, step, if_pos rfl]
      have hn : locate (a ++ ['\n'] :: y) ⟨(endPos a).line, (endPos a).offset + 1⟩ = none := by
        refine locate_eq_none.mpr fun u v huv hq => ?_
        have h1 : Before (endPos a) (endPos u) := by rw [hq]; unfold Before; simp
        have h2 : Before (endPos u) (endPos (a ++ [['\n']])) := by rw [hq, he]; unfold Before; simp
        obtain ⟨z, hz, rfl, hv⟩ := split_mono_lt (b := ['\n'] :: y) (b' := v) huv h1
        obtain ⟨c, z, rfl⟩ := List.exists_cons_of_ne_nil hz
        obtain rfl := (List.cons.inj hv).1
        have h3 := endPos_le_append (a ++ [['\n']]) z
        rw [List.append_assoc, List.singleton_append] at h3
        exact Before.irrefl _ (h2.trans_le h3)
      unfold afterEnd
      rw [hn]
      simp only
      rw [show locate (a ++ ['\n'] :: y) ⟨(endPos a).line + 1, 0⟩ = some (a ++ [['\n']], y) from locate_eq_some.mpr ⟨by simp, he⟩]
      rfl
    · have he : endPos (a ++ [c]) = ⟨(endPos a).line, (endPos a).offset + 1⟩ := by rw [endPos_concat, step, if_neg hc]
      unfold afterEnd
      rw [show locate (a ++ c :: y) ⟨(endPos a).line, (endPos a).offset + 1⟩ = some (a ++ [c], y) from locate_eq_some.mpr ⟨by simp, he⟩]
      rfl

/-- C55: undoing the insertion of a combining mark keeps the mark and destroys what follows it. Precisely: `s` is one cluster by itself, but put after
the cluster `last` it merges with it; after `insert` and `undo` the mark is still there, and the cluster after the cursor is gone (if there is one). -/
theorem C55_mark_undo (S : Segmenter) (A : Alloc) (b : Buf) (d : Doc) (s last : Text) (init y : List Text) (h : Reached S A b d) (hg : b.group = none)
    (hl : locate (S.segs d.text) b.cursor.position = some (init ++ [last], y)) (h1 : S.segs s = [s]) (hs : '\n' ∉ s)
    (hm : S.segs (init.flatten ++ last ++ s ++ y.flatten) = init ++ (last ++ s) :: y) :
    ∃ b', execAll S A b [.insert s, .undo] = .ok b' ∧ b'.data.toStr = .ok (init.flatten ++ last ++ s ++ (y.drop 1).flatten) := by
  generalize hp : b.cursor.position = p at hl
  obtain ⟨hxy, hxp⟩ := locate_eq_some.mp hl
  have hsne : s ≠ [] := S.nonempty s s (by rw [h1]; simp)
  have hlne : last ≠ [] := S.nonempty d.text last (by rw [hxy]; simp)
  have hclu : last ++ s ∈ S.segs (init.flatten ++ last ++ s ++ y.flatten) := by rw [hm]; simp
  have hlnl : '\n' ∉ last := by
    intro hin
    have h2 := S.newline _ _ (by rw [hxy]; simp : last ∈ S.segs d.text) hin
    have h3 := S.newline _ _ hclu (by simp [hin])
    rcases h2 with rfl | rfl <;> rcases h3 with h3 | h3 <;> simp at h3 <;> exact hsne h3
  have hfne : last ++ s ≠ ['\n'] := by
    intro he
    have := congrArg List.length he
    have a1 := List.length_pos_iff.mpr hsne
    have a2 := List.length_pos_iff.mpr hlne
    simp only [List.length_append, List.length_singleton] at this
    omega
  have hlone : last ≠ ['\n'] := fun he => hlnl (by rw [he]; simp)
  have hpos : endPos (init ++ [last ++ s]) = p := (endPos_fused hlone hfne).trans hxp
  -- the insertion
  obtain ⟨g1, hi1, hr1⟩ := holds_insert_rep (A := A) h.holds s hl
  rw [List.flatten_append, List.flatten_singleton] at hr1
  have hcut : S.segs (init.flatten ++ last ++ s) = init ++ [last ++ s] := by
    have := S.cut_left (a := init ++ [last ++ s]) (b := y) (by rw [hm]; simp)
    simpa using this
  have hh : Holds S g1 (init.flatten ++ last ++ s ++ y.flatten) :=
    hr1.holds (by rw [hm, hcut, S.cut_right hxy]; simp)
  let b1 : Buf := ({ b with data := g1 }.report p).store (.insert s p)
  have e1 : exec S A b (.insert s) = .ok b1 := by
    simp only [exec, Buf.insert, runOp, hp, hi1, Except.ok_bind']; rfl
  have hb1 : b1.data = g1 ∧ b1.group = none ∧ b1.history = b.history.add (.simple (.insert s p)) := by
    refine ⟨?_, ?_, ?_⟩
    · show (store _ _).data = g1
      unfold store Buf.report; split <;> split <;> rfl
    · show (store _ _).group = none
      unfold store; rw [report_group]; simp only [hg]
    · show (store _ _).history = _
      unfold store; rw [report_group]; simp only [hg]; rw [report_history]
  -- the end computed by undo
  have hcount : countNl s = 0 := by
    rw [countNl, List.length_eq_zero_iff, List.filter_eq_nil_iff]
    intro c hc he
    exact hs ((beq_iff_eq.mp he) ▸ hc)
  have hend : insertEnd S s p = .ok (some ⟨p.line, p.offset + 1⟩) := by
    unfold insertEnd
    simp only
    rw [subU, if_pos (by omega), Except.ok_bind', if_pos (by omega), h1, hcount]
    rfl
  have hle : AtOrBefore p ⟨p.line, p.offset + 1⟩ := Or.inr ⟨rfl, by simp⟩
  have hrange : Range.new p ⟨p.line, p.offset + 1⟩ = ⟨p, ⟨p.line, p.offset + 1⟩⟩ := by
    rw [range_new]
    have h2 : lo p ⟨p.line, p.offset + 1⟩ = p := if_pos hle
    have h3 : hi p ⟨p.line, p.offset + 1⟩ = ⟨p.line, p.offset + 1⟩ := if_pos hle
    rw [h2, h3]
  obtain ⟨g2, h2, ht2, _⟩ := hh.delete ⟨p, ⟨p.line, p.offset + 1⟩⟩ hle
  have hres : Spec.deleteRange S.segs (init.flatten ++ last ++ s ++ y.flatten) p ⟨p.line, p.offset + 1⟩ =
      init.flatten ++ last ++ s ++ (y.drop 1).flatten := by
    unfold Spec.deleteRange
    rw [hm, show init ++ (last ++ s) :: y = (init ++ [last ++ s]) ++ y by simp, show locate ((init ++ [last ++ s]) ++ y) p = some (init ++ [last ++ s], y) from
      locate_eq_some.mpr ⟨rfl, hpos⟩]
    simp only
    have ha := afterEnd_one (init ++ [last ++ s]) y
    rw [hpos] at ha
    rw [ha]; simp
  simp only at ht2
  rw [hres] at ht2
  let b2 : Buf := { b1 with
      group := none
      history := ⟨b.history.previous, [.simple (.insert s p)], (b.history.add (.simple (.insert s p))).mark⟩ }
  refine ⟨{ b2 with data := g2 }.report p, ?_, ?_⟩
  · simp only [execAll, e1, Except.ok_bind']
    have : exec S A b1 .undo = reverseOp S A b2 (.insert s p) := by
      simp only [exec, undo, hb1.2.1, hb1.2.2, History.add, History.back, reverseAny]; rfl
    rw [this]
    simp only [reverseOp, hend, Except.ok_bind', hrange]
    rw [show b2.data = g1 from hb1.1, h2]
    rfl
  · have : ({ b2 with data := g2 }.report p).data = g2 := by unfold Buf.report; split <;> rfl
    rw [this]; exact ht2

/-- An accent typed after the "e" of "ex" and undone: the accent stays, the "x" is gone. At the end of a line the newline goes. -/
example : (execAll Demo.seg Demo.tight (Buf.fromContent Demo.tight 0 (Demo.s "ex")) [.setCursor ⟨0, 1⟩, .insert (Demo.s "\u0301"), .undo] >>= fun b => b.data.toStr) =
    .ok (Demo.s "e\u0301") := by decide +kernel
example : (execAll Demo.seg Demo.tight (Buf.fromContent Demo.tight 0 (Demo.s "e\nx")) [.setCursor ⟨0, 1⟩, .insert (Demo.s "\u0301"), .undo] >>= fun b => b.data.toStr) =
    .ok (Demo.s "e\u0301x") := by decide +kernel

theorem cont_proper {st st' : Uax29.St} {c : Uax29.Cls} (h : Uax29.cont st c = some st') (h1 : st ≠ .cr) : st' ≠ .cr ∧ st' ≠ .ctl := by
  cases st <;> cases c <;> simp_all [Uax29.cont, Uax29.start] <;> subst h <;> simp

theorem runSt_proper {cls : Char → Uax29.Cls} {s : Text} {st st' : Uax29.St} (h : Uax29.runSt cls st s = some st') (h1 : st ≠ .cr) (h2 : st ≠ .ctl) :
    st' ≠ .ctl := by
  induction s generalizing st with
  | nil => exact Option.some.inj h ▸ h2
  | cons c s ih =>
    unfold Uax29.runSt at h
    cases hc : Uax29.cont st (cls c) with
    | none => rw [hc] at h; cases h
    | some st1 =>
      rw [hc] at h
      obtain ⟨k1, k2⟩ := cont_proper hc h1
      exact ih h k1 k2

theorem runSt_append (cls : Char → Uax29.Cls) (s t : Text) (st : Uax29.St) : Uax29.runSt cls st (s ++ t) = (Uax29.runSt cls st s).bind (Uax29.runSt cls · t) := by
  induction s generalizing st with
  | nil => rfl
  | cons c s ih =>
    simp only [List.cons_append, Uax29.runSt]
    cases Uax29.cont st (cls c) with
    | none => rfl
    | some st1 => exact ih st1

/-- An ordinary cluster that is not a newline or control takes a mark. -/
theorem ordinary_mark {T : Uax29.Table} {x : Text} {m : Char} (h : Uax29.Ordinary T.cls x) (hm : T.cls m = .extend)
    (hx : ∀ c ∈ x, T.cls c ≠ .lf ∧ T.cls c ≠ .control) : Uax29.Ordinary T.cls (x ++ [m]) := by
  cases x with
  | nil => cases h
  | cons c x =>
    obtain ⟨h1, st, h2, h3⟩ := h
    have hc := hx c (by simp)
    have hst : st ≠ .ctl := by
      refine runSt_proper h2 ?_ ?_ <;> revert hc h1 <;> cases T.cls c <;> simp [Uax29.start, Uax29.Cls.first]
    refine ⟨h1, ?_⟩
    rw [show (x.append [m]) = x ++ [m] from rfl, runSt_append, h2]
    simp only [Option.bind_some, Uax29.runSt, hm]
    revert h3 hst
    cases st <;> simp [Uax29.St.closed, Uax29.cont]

/-- C55: for every Unicode table, in every ordinary text: an accent (a character of class Extend) inserted after a cluster that is not a newline or control,
then undone, stays, and the cluster after it is destroyed instead. -/
theorem C55_accent_undo (T : Uax29.Table) (A : Alloc) (b : Buf) (d : Doc) (m : Char) (last : Text) (init y : List Text)
    (h : Reached (Uax29.segmenter T) A b d) (hg : b.group = none) (ht : Over (Uax29.segmenter T).segs (Uax29.Ordinary T.cls) d.text)
    (hl : locate ((Uax29.segmenter T).segs d.text) b.cursor.position = some (init ++ [last], y)) (hm : T.cls m = .extend)
    (hc : ∀ c ∈ last, T.cls c ≠ .lf ∧ T.cls c ≠ .control) :
    ∃ b', execAll (Uax29.segmenter T) A b [.insert [m], .undo] = .ok b' ∧
      b'.data.toStr = .ok (init.flatten ++ last ++ [m] ++ (y.drop 1).flatten) := by
  obtain ⟨hxy, -⟩ := locate_eq_some.mp hl
  obtain ⟨ha, hb⟩ := over_parts ht hxy
  refine C55_mark_undo _ A b d [m] last init y h hg hl rfl ?_ ?_
  · intro hin
    have := (T.lf m).mpr (List.mem_singleton.mp hin).symm
    rw [hm] at this; cases this
  · have := Uax29.ordinary_apart T (init ++ (last ++ [m]) :: y) (by
      simp only [List.mem_append, List.mem_cons]
      rintro c (hc' | rfl | hc')
      · exact ha c (by simp [hc'])
      · exact ordinary_mark (ha last (by simp)) hm hc
      · exact hb c hc')
    simpa [Uax29.segmenter] using this

end Scribe.Props
