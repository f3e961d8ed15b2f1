import Verif.Proofs.Concurrent
import Verif.Props.Buffer
/-!
# Property C96: edits made at the same time
-/
namespace Scribe.Props
open Spec Buf Delta
variable {S : Segmenter} {P : Text → Prop}

/-- **C96.** Two buffers with the same ordinary text, in whatever states; one makes the change `e`, the other `f`. When each then makes the change of the other,
moved by arithmetic on positions, both hold the same text: the original with both changes made to it at once. -/
theorem C96_two (hP : Closed S.segs P) (A A' : Alloc) (b b' : Buf) (d d' : Doc) (t : Text) (e f : Delta) (h : Reached S A b d) (h' : Reached S A' b' d')
    (ht : b.data.toStr = .ok t) (ht' : b'.data.toStr = .ok t) (hov : Over S.segs P t) (he : e.Fits S.segs P t) (hf : f.Fits S.segs P t) :
    ∃ c c', execAll S A b (e.calls ++ (f.against S.segs false e).calls) = .ok c ∧ execAll S A' b' (f.calls ++ (e.against S.segs true f).calls) = .ok c' ∧
      c.data.toStr = .ok (merged S.segs e f t) ∧ c'.data.toStr = .ok (merged S.segs e f t) := by
  obtain ⟨x, hx⟩ := h.tri
  obtain ⟨x', hx'⟩ := h'.tri
  obtain rfl := Except.ok.inj (hx.sim.face.data.toStr.symm.trans ht)
  have hdt : d'.text = d.text := Except.ok.inj (hx'.sim.face.data.toStr.symm.trans ht')
  obtain ⟨e1, e2, _⟩ := fits_does hP hov he
  obtain ⟨f1, f2, _⟩ := fits_does hP hov hf
  obtain ⟨c, k1, k2, k3⟩ := meet e1 f1
  have key : ∀ {A : Alloc} {b : Buf} {d1 : Doc} {x : Snap} (u v : Delta) (cs : List Text), Tri S b d1 x → d1.text = d.text → PutsOver S P u → PutsOver S P v →
      Does S.segs (S.segs d.text) u cs → Does S.segs cs v c →
      ∃ z, execAll S A b (u.calls ++ v.calls) = .ok z ∧ z.data.toStr = .ok (merged S.segs e f d.text) := by
    intro A b d1 x u v cs ht hdt hu hv h1 h2
    have := doesAll_calls hP [u, v] (d := d1) (cs := c) (by rw [hdt]; exact hov) (by simp [hu, hv]) (by rw [hdt]; exact .cons h1 (.cons h2 (.nil _)))
    simp only [List.flatMap_cons, List.flatMap_nil, List.append_nil] at this
    obtain ⟨z, z1, z2⟩ := ht.execAll (A := A) _ this.1
    refine ⟨z, z1, ?_⟩
    rw [z2.sim.face.data.toStr, ← S.join (Doc.steps _ _ _).text, this.2.1, k3]
    rfl
  obtain ⟨z, z1, z2⟩ := key (A := A) e (f.against S.segs false e) _ hx rfl e2 (putsOver_against f2) e1 k1
  obtain ⟨z', z1', z2'⟩ := key (A := A') f (e.against S.segs true f) _ hx' hdt f2 (putsOver_against e2) f1 k2
  exact ⟨z, z', z1, z1', z2, z2'⟩

/-- **C96.** The same for any numbers of changes on both sides: after `es` the changes `fs` moved past them, after `fs` the changes `es` moved past them. No call
panics, and both sides end with the same text. -/
theorem C96_many (hP : Closed S.segs P) (A A' : Alloc) (b b' : Buf) (d d' : Doc) (t : Text) (es fs : List Delta) (h : Reached S A b d) (h' : Reached S A' b' d')
    (ht : b.data.toStr = .ok t) (ht' : b'.data.toStr = .ok t) (hov : Over S.segs P t) (he : FitsAll S.segs P t es) (hf : FitsAll S.segs P t fs) :
    ∃ c c', execAll S A b ((es ++ (pastAll S.segs es fs).2).flatMap Delta.calls) = .ok c ∧
      execAll S A' b' ((fs ++ (pastAll S.segs es fs).1).flatMap Delta.calls) = .ok c' ∧ c.data.toStr = c'.data.toStr := by
  obtain ⟨x, hx⟩ := h.tri
  obtain ⟨x', hx'⟩ := h'.tri
  obtain rfl := Except.ok.inj (hx.sim.face.data.toStr.symm.trans ht)
  have hdt : d'.text = d.text := Except.ok.inj (hx'.sim.face.data.toStr.symm.trans ht')
  obtain ⟨c1, e1, e2⟩ := fitsAll_does hP es hov he
  obtain ⟨c2, f1, f2⟩ := fitsAll_does hP fs hov hf
  obtain ⟨c, k1, k2⟩ := meet_pastAll es fs e1 f1
  obtain ⟨p1, p2⟩ := putsOver_pastAll es fs e2 f2
  obtain ⟨g1, g2, _⟩ := doesAll_calls hP (es ++ (pastAll S.segs es fs).2) (d := d) hov
    (fun y hy => (List.mem_append.mp hy).elim (e2 y) (p2 y)) (e1.append k1)
  obtain ⟨g1', g2', _⟩ := doesAll_calls hP (fs ++ (pastAll S.segs es fs).1) (d := d') (by rw [hdt]; exact hov)
    (fun y hy => (List.mem_append.mp hy).elim (f2 y) (p1 y)) (by rw [hdt]; exact f1.append k2)
  obtain ⟨z, z1, z2⟩ := hx.execAll (A := A) _ g1
  obtain ⟨z', z1', z2'⟩ := hx'.execAll (A := A') _ g1'
  refine ⟨z, z', z1, z1', ?_⟩
  rw [z2.sim.face.data.toStr, z2'.sim.face.data.toStr, ← S.join (Doc.steps _ d _).text, g2, ← S.join (Doc.steps _ d' _).text, g2']

/-- Both cut, and the parts overlap; one puts text inside of what the other cuts; both put at the same place. -/
example : merged Demo.seg.segs (.cut ⟨0, 1⟩ ⟨1, 1⟩) (.cut ⟨0, 2⟩ ⟨1, 2⟩) (Demo.s "abc\ndef") = Demo.s "af" ∧
    merged Demo.seg.segs (.cut ⟨0, 1⟩ ⟨1, 1⟩) (.put ⟨0, 2⟩ (Demo.s "x")) (Demo.s "abc\ndef") = Demo.s "aef" ∧
    merged Demo.seg.segs (.put ⟨1, 1⟩ (Demo.s "y")) (.put ⟨1, 1⟩ (Demo.s "x")) (Demo.s "abc\ndef") = Demo.s "abc\ndyxef" := by decide +kernel

/-- Two changes on one side and three on the other: overlapping cuts, texts at the same place and inside of a cut. -/
example : pastAll Demo.seg.segs [.cut ⟨0, 1⟩ ⟨1, 1⟩, .put ⟨0, 1⟩ (Demo.s "x\ny")] [.put ⟨0, 2⟩ (Demo.s "lost"), .cut ⟨0, 6⟩ ⟨1, 2⟩, .put ⟨0, 1⟩ (Demo.s "z")] =
    ([.cut ⟨0, 2⟩ ⟨0, 7⟩, .put ⟨0, 1⟩ (Demo.s "x\ny")], [.put ⟨1, 1⟩ [], .cut ⟨1, 1⟩ ⟨1, 2⟩, .put ⟨1, 1⟩ (Demo.s "z")]) := by decide +kernel
example :
    (execAll Demo.seg Demo.tight (Buf.fromContent Demo.tight 0 (Demo.s "abc\ndef")) (([.cut ⟨0, 1⟩ ⟨1, 1⟩, .put ⟨0, 1⟩ (Demo.s "x\ny"),
      .put ⟨1, 1⟩ [], .cut ⟨1, 1⟩ ⟨1, 2⟩, .put ⟨1, 1⟩ (Demo.s "z")] : List Delta).flatMap calls) >>= fun b => b.data.toStr) = .ok (Demo.s "ax\nyzf") ∧
    (execAll Demo.seg Demo.tight (Buf.fromContent Demo.tight 0 (Demo.s "abc\ndef")) (([.put ⟨0, 2⟩ (Demo.s "lost"), .cut ⟨0, 6⟩ ⟨1, 2⟩, .put ⟨0, 1⟩ (Demo.s "z"),
      .cut ⟨0, 2⟩ ⟨0, 7⟩, .put ⟨0, 1⟩ (Demo.s "x\ny")] : List Delta).flatMap calls) >>= fun b => b.data.toStr) = .ok (Demo.s "ax\nyzf") := by decide +kernel

end Scribe.Props
