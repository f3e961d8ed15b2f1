import Verif.Proofs.FindReplace
import Verif.Props.Ordinary
/-!
# Property C86: find and replace

The results of `search` used as positions of edits, in text whose clusters are single bytes.
-/
namespace Scribe.Props
open Spec Buf
variable {S : Segmenter} {P : Text → Prop}

/-- C86: deleting the needle at a result of `search` and inserting another string there replaces that occurrence, and nothing else. -/
theorem C86_replace_one (hP : Closed S.segs P) (h1 : OneByte P) (A : Alloc) (b : Buf) (d : Doc) (t needle r : Text) (ps : List Position) (p : Position)
    (h : Reached S A b d) (ht : b.data.toStr = .ok t) (ho : Over S.segs P t) (hr : Over S.segs P r)
    (hn : needle ≠ []) (hnl : '\n' ∉ needle) (hcr : '\r' ∉ needle) (hs : b.search needle = .ok ps) (hp : p ∈ ps) :
    ∃ x y b', t = x ++ needle ++ y ∧ endPos (S.segs x) = p ∧ execAll S A b (change needle.length r p) = .ok b' ∧ b'.data.toStr = .ok (x ++ r ++ y) := by
  have hc := over_single h1 ho
  have ha : ∀ c ∈ t, c.utf8Size = 1 := fun c hm => by
    obtain ⟨x, e, hx⟩ := h1 _ (hc c hm)
    obtain rfl := List.singleton_inj.mp e; exact hx
  rw [search_eq ht hn hnl hcr ha hs] at hp
  obtain ⟨x, y, e1, e2⟩ := (mem_occ hn).mp hp
  rw [List.nil_append] at e2
  obtain ⟨s, hsn⟩ := h.tri
  have hd : d.text = t := Except.ok.inj (hsn.sim.face.data.toStr.symm.trans ht)
  obtain ⟨m1, m2⟩ := change_step (d := d) (x := x) (needle := needle) (y := y) (r := r) hP hnl (hd.trans e1) (by rw [← e1]; exact hc) hr
  obtain ⟨b', f1, f2⟩ := hsn.execAll (A := A) _ m1
  refine ⟨x, y, b', e1, ?_, by rw [e2]; exact f1, ?_⟩
  · rw [singles hP (fun c hm => hc c (by rw [e1]; simp [hm])), e2]; rfl
  · rw [f2.sim.face.data.toStr, m2]

/-- C86: done to all results that do not overlap, from the last to the first, this replaces all occurrences. -/
theorem C86_replace_all (hP : Closed S.segs P) (h1 : OneByte P) (A : Alloc) (b : Buf) (d : Doc) (t needle r : Text) (ps : List Position)
    (h : Reached S A b d) (ht : b.data.toStr = .ok t) (ho : Over S.segs P t) (hr : Over S.segs P r)
    (hn : needle ≠ []) (hnl : '\n' ∉ needle) (hcr : '\r' ∉ needle) (hs : b.search needle = .ok ps) :
    ∃ b', execAll S A b (changeAll needle.length r ps) = .ok b' ∧ b'.data.toStr = .ok (substitute needle r 0 t) := by
  obtain ⟨s, hsn⟩ := h.tri
  have hd : d.text = t := Except.ok.inj (hsn.sim.face.data.toStr.symm.trans ht)
  obtain ⟨m1, m2⟩ := changeAll_step hP h1 hn hnl hcr hr ht ho hs (d := d) hd
  obtain ⟨b', f1, f2⟩ := hsn.execAll (A := A) _ m1
  exact ⟨b', f1, by rw [f2.sim.face.data.toStr, m2]⟩

/-- C86: done in a group, one undo takes all of it back and one redo does it again. -/
theorem C86_undo (hP : Closed S.segs P) (h1 : OneByte P) (A : Alloc) (b : Buf) (d : Doc) (t needle r : Text) (ps : List Position)
    (h : Reached S A b d) (hg : b.group = none) (ht : b.data.toStr = .ok t) (ho : Over S.segs P t) (hr : Over S.segs P r)
    (hn : needle ≠ []) (hnl : '\n' ∉ needle) (hcr : '\r' ∉ needle) (hs : b.search needle = .ok ps) (hps : ps ≠ []) :
    ∃ b1 b2 b3, execAll S A b (.startGroup :: changeAll needle.length r ps ++ [.endGroup]) = .ok b1 ∧
      b1.data.toStr = .ok (substitute needle r 0 t) ∧ b1.history.previous.length = b.history.previous.length + 1 ∧
      exec S A b1 .undo = .ok b2 ∧ b2.data.toStr = .ok t ∧ exec S A b2 .redo = .ok b3 ∧ b3.data.toStr = .ok (substitute needle r 0 t) := by
  obtain ⟨s, hsn⟩ := h.tri
  have hd : d.text = t := Except.ok.inj (hsn.sim.face.data.toStr.symm.trans ht)
  obtain ⟨m1, m2⟩ := changeAll_step hP h1 hn hnl hcr hr ht ho hs (d := d.step S.segs .startGroup) hd
  have hclean : CleanCmds S.segs d (.startGroup :: changeAll needle.length r ps ++ [.endGroup]) :=
    ⟨trivial, cleanCmds_app.mpr ⟨m1, trivial, trivial⟩⟩
  obtain ⟨b1, b2, b3, e1, e2, e3, e4, e5, e6⟩ := C16_group_is_one_step S A b d (changeAll needle.length r ps) h hg hclean
    (by
      intro c hc
      obtain ⟨p, _, hp⟩ := List.mem_flatMap.mp hc
      simp only [change, List.mem_cons, List.not_mem_nil, or_false] at hp
      rcases hp with rfl | rfl | rfl <;> trivial)
    (by
      obtain ⟨p, ps, rfl⟩ := List.exists_cons_of_ne_nil hps
      exact ⟨.insert r, List.mem_flatMap.mpr ⟨p, by simp [disjoint], by simp [change]⟩, trivial⟩)
  have hdat : b1.data.toStr = .ok (substitute needle r 0 t) := by
    obtain ⟨b1', f1, f2⟩ := hsn.execAll (A := A) _ hclean
    obtain rfl := Except.ok.inj (f1.symm.trans e1)
    rw [f2.sim.face.data.toStr, List.cons_append, steps_cons]
    have es : ∀ (d : Doc) (a b : List Cmd), d.steps S.segs (a ++ b) = (d.steps S.segs a).steps S.segs b := fun d a b => List.foldl_append ..
    rw [es, steps_cons, steps_nil, ← m2]
    congr 1
    generalize (d.step S.segs .startGroup).steps S.segs (changeAll needle.length r ps) = d'
    show d'.endGroup.text = _
    unfold Doc.endGroup Doc.push
    split <;> rfl
  exact ⟨b1, b2, b3, e1, hdat, e2, e3, by rw [e4, ht], e5, by rw [e6, hdat]⟩

/-- Ordinary clusters that are single characters of one byte meet the conditions, for every Unicode table. -/
example (T : Uax29.Table) : Closed (Uax29.segmenter T).segs (fun c => Uax29.Ordinary T.cls c ∧ ∃ x : Char, c = [x] ∧ x.utf8Size = 1) ∧
    OneByte (fun c => Uax29.Ordinary T.cls c ∧ ∃ x : Char, c = [x] ∧ x.utf8Size = 1) :=
  ⟨⟨fun cs h => (Uax29.ordinary_closed T).apart cs fun c hc => (h c hc).1, fun h => (Uax29.ordinary_closed T).noCrlf h.1⟩, fun _ h => h.2⟩

/-- Overlapping occurrences on two lines, replaced by two lines. -/
example : (do
    let b := Buf.fromContent Demo.tight 0 (Demo.s "baaa\naa")
    let ps ← b.search (Demo.s "aa")
    let b ← execAll Demo.seg Demo.tight b (.startGroup :: changeAll 2 (Demo.s "a\nc") ps ++ [.endGroup])
    let u ← exec Demo.seg Demo.tight b .undo
    return (ps, ← b.data.toStr, ← u.data.toStr)) =
    Except.ok (ε := Panic) ([⟨0, 1⟩, ⟨0, 2⟩, ⟨1, 0⟩], Demo.s "ba\nca\na\nc", Demo.s "baaa\naa") := by decide +kernel
example : substitute (Demo.s "aa") (Demo.s "a\nc") 0 (Demo.s "baaa\naa") = Demo.s "ba\nca\na\nc" := by decide +kernel

/-- Without the condition it fails: a character of two bytes moves the results after it, and another place is changed. -/
example : (do
    let b := Buf.fromContent Demo.tight 0 (Demo.s "éabc")
    let ps ← b.search (Demo.s "b")
    let b ← execAll Demo.seg Demo.tight b (changeAll 1 (Demo.s "x") ps)
    return (ps, ← b.data.toStr)) = Except.ok (ε := Panic) ([⟨0, 3⟩], Demo.s "éabx") := by decide +kernel

end Scribe.Props
