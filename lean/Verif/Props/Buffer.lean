import Verif.Props.History
import Verif.Proofs.Safe
/-!
# Properties C23, C25, C31, C46, C47: replacing, change callback, line count, cursor, panics
-/
namespace Scribe.Props
open Spec Buf

/-- **C47.** No sequence of buffer calls, clean or not, with any arguments and any (even out of bounds) cursor, panics; afterwards
the contents can be read. -/
theorem C47_no_panic (S : Segmenter) (A : Alloc) (k : Nat) (t : Text) (cs : List Cmd) :
    (∃ b u, execAll S A (Buf.new A k) cs = .ok b ∧ b.data.toStr = .ok u) ∧
    (∃ b u, execAll S A (Buf.fromContent A k t) cs = .ok b ∧ b.data.toStr = .ok u) := by
  obtain ⟨b1, h1, k1⟩ := execAll_safe (S := S) (A := A) cs (sane_new (A := A) k)
  obtain ⟨b2, h2, k2⟩ := execAll_safe (S := S) (A := A) cs (sane_fromContent (A := A) k t)
  obtain ⟨u1, e1⟩ := k1.toStr
  obtain ⟨u2, e2⟩ := k2.toStr
  exact ⟨⟨b1, u1, h1, e1⟩, b2, u2, h2, e2⟩

/-- Unclean calls: a combining accent, a CRLF, a deletion beyond the end, redo inside a group, a cursor far outside. -/
example : (execAll Demo.seg Demo.tight (Buf.fromContent Demo.tight 0 (Demo.s "xyz"))
    [.insert (Demo.s "a\r\nb"), .undo, .insert (Demo.s "́"), .deleteRange ⟨0, 0⟩ ⟨9, 9⟩, .undo, .startGroup, .insert (Demo.s "q"), .redo,
      .setCursor ⟨7, 7⟩, .delete, .insert (Demo.s "e"), .undo, .undo, .undo, .redo, .redo]).isOk := by decide +kernel

/-! ### C23 -/

/-- **C23.** `replace(c)`: if `c` is the current text nothing changes at all. Otherwise the contents become `c`, and the cursor stays where it
is if that position exists in `c`, else goes to the start of its line if that exists, else to the start of the text. In every state, clean or
not. -/
theorem C23_replace (S : Segmenter) (A : Alloc) (b : Buf) (old c : Text) (ht : b.data.toStr = .ok old) :
    (c = old → exec S A b (.replace c) = .ok b) ∧
    (c ≠ old → ∃ b', exec S A b (.replace c) = .ok b' ∧ b'.data.toStr = .ok c ∧
      (exists? S.segs c b.cursor.position = true → b'.cursor.position = b.cursor.position) ∧
      (exists? S.segs c b.cursor.position = false → exists? S.segs c ⟨b.cursor.position.line, 0⟩ = true →
        b'.cursor.position = ⟨b.cursor.position.line, 0⟩) ∧
      (exists? S.segs c b.cursor.position = false → exists? S.segs c ⟨b.cursor.position.line, 0⟩ = false →
        b'.cursor.position = ⟨0, 0⟩) ∧
      exists? S.segs c b'.cursor.position = true) := by
  have h00 : exists? S.segs c ⟨0, 0⟩ = true := by
    unfold exists?
    rw [show locate (S.segs c) ⟨0, 0⟩ = some ([], S.segs c) from locate_eq_some.mpr ⟨rfl, rfl⟩]; rfl
  refine ⟨fun h => ?_, fun h => ?_⟩
  · simp only [exec, replace, ht, Except.ok_bind', if_pos h]; rfl
  · have hn : Holds S (GapBuffer.new A b.data.clock c) c := GapBuffer.holds_new _ _
    have key : ∃ b1, replaceContent S A c b = .ok b1 ∧ b1.data = GapBuffer.new A b.data.clock c ∧
        b1.cursor = placeCursor S.segs c b.cursor.position := by
      have rep : ∀ (b : Buf) p, (b.report p).data = b.data ∧ (b.report p).cursor = b.cursor := by
        intro b p; unfold Buf.report; split <;> exact ⟨rfl, rfl⟩
      unfold replaceContent placeCursor
      simp only [Cursor.moveTo_holds hn, Except.ok_bind']
      by_cases h1 : exists? S.segs c b.cursor.position = true
      · simp only [h1, if_true]; exact ⟨_, rfl, rep _ _⟩
      · by_cases h2 : exists? S.segs c ⟨b.cursor.position.line, 0⟩ = true
        · simp only [h1, h2, if_true]; exact ⟨_, rfl, rep _ _⟩
        · simp only [h1, h2]; exact ⟨_, rfl, rep _ _⟩
    obtain ⟨b1, e1, e2, e3⟩ := key
    have st : ∀ op, (b1.store op).data = b1.data ∧ (b1.store op).cursor = b1.cursor := by
      intro op; unfold store; split <;> exact ⟨rfl, rfl⟩
    refine ⟨b1.store (.replace old c), ?_, ?_, ?_⟩
    · simp only [exec, replace, ht, Except.ok_bind', if_neg h, runOp, e1]; rfl
    · rw [(st _).1, e2]; exact hn.toStr
    · rw [(st _).2, e3]
      unfold placeCursor
      by_cases h1 : exists? S.segs c b.cursor.position = true
      · simp [h1]
      · by_cases h2 : exists? S.segs c ⟨b.cursor.position.line, 0⟩ = true
        · simp [h1, h2]
        · simp [h1, h2, h00]

/-- The cursor on line 1, column 3; the new text has a line 1 with only one character. -/
example : (execAll Demo.seg Demo.tight (Buf.fromContent Demo.tight 0 (Demo.s "ab\ncdef")) [.move (.to ⟨1, 3⟩), .replace (Demo.s "x\ny\nz")]
    >>= fun b => .ok (b.cursor.position, b.data.toStr)) = .ok (⟨1, 0⟩, .ok (Demo.s "x\ny\nz")) := by decide +kernel

/-! ### C25 -/

/-- The text before (and at) `p` is the same in both texts. -/
def Common (S : Segmenter) (p : Position) (t t' : Text) : Prop :=
  t = t' ∨ ∃ a x y, S.segs t = a ++ x ∧ S.segs t' = a ++ y ∧ endPos a = p

theorem Common.symm {S p t t'} (h : Common S p t t') : Common S p t' t := by
  rcases h with h | ⟨a, x, y, h1, h2, h3⟩
  · exact Or.inl h.symm
  · exact Or.inr ⟨a, y, x, h2, h1, h3⟩

/-- Places at or before all of `ps` are the same in both texts. -/
def Stable (S : Segmenter) (ps : List Position) (t t' : Text) : Prop :=
  ∀ a x, S.segs t = a ++ x → (∀ p ∈ ps, AtOrBefore (endPos a) p) → ∃ y, S.segs t' = a ++ y

theorem Common.stable {S p t t'} (h : Common S p t t') : Stable S [p] t t' := by
  intro a x ha hp
  rcases h with rfl | ⟨a0, x0, y0, h1, h2, h3⟩
  · exact ⟨x, ha⟩
  · have := hp p (by simp)
    rw [← h3] at this
    obtain ⟨d, rfl, rfl⟩ := split_mono (ha.symm.trans h1) this
    exact ⟨d ++ y0, by rw [h2]; simp⟩

theorem Stable.trans {S ps qs t t' t''} (h : Stable S ps t t') (h' : Stable S qs t' t'') : Stable S (ps ++ qs) t t'' := by
  intro a x ha hp
  obtain ⟨y, hy⟩ := h a x ha (fun p hm => hp p (by simp [hm]))
  exact h' a y hy (fun p hm => hp p (by simp [hm]))

theorem Stable.refl {S t} : Stable S [] t t := fun _ x h _ => ⟨x, h⟩

/-- What is known of a stored edit. -/
structure EditOk (S : Segmenter) (e : Edit) : Prop where
  common : Common S e.at_ e.before e.after
  undo : ∀ p, e.undoAt = some p → p = e.at_
  none : e.undoAt = none → e.before = e.after

theorem _root_.Scribe.SRel.ok {S op e} (h : SRel S op e) : EditOk S e := by
  cases h with
  | insert t s p hc hcr =>
    refine ⟨?_, fun q hq => (Option.some.inj hq).symm, fun h => (by cases h)⟩
    simp only [Doc.insertEdit]
    cases hl : locate (S.segs t) p with
    | none => left; rw [insertAt, hl]
    | some x =>
      obtain ⟨a, b⟩ := x
      obtain ⟨h1, h2⟩ := locate_eq_some.mp hl
      right
      refine ⟨a, b, S.segs s ++ b, h1, ?_, h2⟩
      rw [insertAt, hl]; simp only; rw [hc a b hl]; simp
  | delete t r hr hc =>
    simp only [Doc.deleteEdit]
    refine ⟨?_, ?_, ?_⟩
    · cases hl : locate (S.segs t) r.start with
      | none => left; rw [Spec.deleteRange, hl]
      | some x =>
        obtain ⟨a, b⟩ := x
        obtain ⟨h1, h2⟩ := locate_eq_some.mp hl
        right
        refine ⟨a, b, afterEnd (S.segs t) r.stop, h1, ?_, h2⟩
        simp only [Spec.deleteRange, hl]
        exact hc.1 a b hl
    · intro q hq
      simp only at hq
      split at hq
      · exact (Option.some.inj hq).symm
      · cases hq
    · intro h
      simp only at h ⊢
      split at h
      · cases h
      · rename_i hx
        rw [← readRange_isSome] at hx
        exact (cleanRange_none hc (by simpa using hx)).symm
  | replace t s =>
    exact ⟨Or.inr ⟨[], S.segs t, S.segs s, rfl, rfl, rfl⟩, fun q hq => (Option.some.inj hq).symm, fun h => (by cases h)⟩

/-- The callback covers what happened between two documents. -/
def Covers (S : Segmenter) (d d' : Doc) : Prop :=
  d'.callback = true ∧ ∃ ps, d'.log = d.log ++ ps ∧ (d.text ≠ d'.text → ps ≠ []) ∧ Stable S ps d.text d'.text

theorem Covers.refl {S d} (h : d.callback = true) : Covers S d d := ⟨h, [], by simp, by simp, Stable.refl⟩

theorem Covers.trans {S a b c} (h : Covers S a b) (h' : Covers S b c) : Covers S a c := by
  obtain ⟨_, ps, h1, h2, h3⟩ := h
  obtain ⟨k0, qs, k1, k2, k3⟩ := h'
  refine ⟨k0, ps ++ qs, by rw [k1, h1]; simp, ?_, h3.trans k3⟩
  intro hne hnil
  obtain ⟨e1, e2⟩ := List.append_eq_nil_iff.mp hnil
  by_cases hab : a.text = b.text
  · exact k2 (by rw [← hab]; exact hne) e2
  · exact h2 hab e1

theorem covers_report {S} {d : Doc} {t : Text} (w : Bool) (p : Position) (hcb : d.callback = true) (h : Common S p d.text t) :
    Covers S d ((d.setText S.segs t w).report (some p)) := by
  have : (d.setText S.segs t w).callback = true := hcb
  simp only [Doc.report, this, if_true]
  exact ⟨rfl, [p], rfl, by simp, h.stable⟩

theorem covers_apply {S} {d : Doc} {e : Edit} (hcb : d.callback = true) (he : EditOk S e) (ht : d.text = e.before) :
    Covers S d (d.apply S.segs e) := covers_report _ _ hcb (by rw [ht]; exact he.common)

theorem covers_revert {S} {d : Doc} {e : Edit} (hcb : d.callback = true) (he : EditOk S e) (ht : d.text = e.after) :
    Covers S d (d.revert S.segs e) := by
  unfold Doc.revert
  cases hu : e.undoAt with
  | none =>
    refine ⟨hcb, [], by simp [Doc.report, Doc.setText], fun hne => ?_, ?_⟩
    · exact absurd (show d.text = e.before by rw [ht, he.none hu]) hne
    · show Stable S [] d.text e.before
      rw [ht, he.none hu]; exact Stable.refl
  | some p =>
    rw [he.undo p hu]
    exact covers_report _ _ hcb (by rw [ht]; exact he.common.symm)

theorem covers_applyAll {S} (es : List Edit) {d : Doc} {t : Text} (hcb : d.callback = true) (he : ∀ e ∈ es, EditOk S e) (hc : Chain es d.text t) :
    Covers S d (d.applyAll S.segs es) := by
  induction es generalizing d with
  | nil => exact Covers.refl hcb
  | cons e es ih =>
    have h1 := covers_apply hcb (he e (by simp)) hc.1.symm
    refine h1.trans (ih h1.1 (fun x hx => he x (by simp [hx])) ?_)
    rw [(apply_same S.segs d e).2]; exact hc.2

theorem covers_revertAll {S} (es : List Edit) {d : Doc} {t : Text} (hcb : d.callback = true) (he : ∀ e ∈ es, EditOk S e) (hc : Chain es t d.text) :
    Covers S d (d.revertAll S.segs es) := by
  induction es using List.reverseRecOn generalizing d with
  | nil => exact Covers.refl hcb
  | append_singleton es e ih =>
    rw [revertAll_snoc]
    obtain ⟨h1, h2⟩ := hc.unsnoc
    have hcov := covers_revert hcb (he e (by simp)) h2.symm
    refine hcov.trans (ih hcov.1 (fun x hx => he x (by simp [hx])) ?_)
    rw [(revert_same S.segs d e).2]; exact h1

/-- `Covers` only looks at text, callback and log. -/
theorem Covers.congr {S} {a b c : Doc} (h : Covers S a b) (h1 : c.callback = b.callback) (h2 : c.log = b.log) (h3 : c.text = b.text) :
    Covers S a c := by
  unfold Covers at *; rw [h1, h2, h3]; exact h

theorem Covers.congr_left {S} {a b c : Doc} (h : Covers S a b) (h2 : c.log = a.log) (h3 : c.text = a.text) : Covers S c b := by
  unfold Covers at *; rw [h2, h3]; exact h

theorem covers_edit {S} {d : Doc} {e : Edit} (hcb : d.callback = true) (he : EditOk S e) (ht : d.text = e.before) :
    Covers S d (d.edit S.segs e) := by
  have := covers_apply hcb he ht
  unfold Doc.edit
  simp only
  split
  · exact this.congr rfl rfl rfl
  · exact this.congr rfl rfl rfl

theorem forall2_ok {S} {ops : List SOp} {es : List Edit} (h : List.Forall₂ (SRel S) ops es) : ∀ e ∈ es, EditOk S e := by
  induction h with
  | nil => simp
  | cons h _ ih =>
    intro e he
    rcases List.mem_cons.mp he with rfl | he
    · exact h.ok
    · exact ih e he

theorem orel_ok {S op es} (h : ORel S op es) : ∀ e ∈ es, EditOk S e := by
  cases h with
  | simple h => intro e he; simp at he; subst he; exact h.ok
  | group h => exact forall2_ok h

theorem covers_replace {S} {d : Doc} (hcb : d.callback = true) (c : Text) : Covers S d (d.replace S.segs c) := by
  unfold Doc.replace
  split
  · exact Covers.refl hcb
  · exact covers_edit hcb (SRel.replace (S := S) d.text c).ok rfl

theorem covers_step {S} {b : Buf} {d : Doc} (h : Sim S b d) (hcb : d.callback = true) (c : Cmd) (hc : CleanCmd S.segs d c) (hs : ∀ v, c ≠ .setCallback v) :
    Covers S d (d.step S.segs c) := by
  obtain ⟨base, p1, p2, p3, p4⟩ := (inv_group d).mpr h.inv
  have refl' : ∀ d' : Doc, d'.callback = d.callback → d'.log = d.log → d'.text = d.text → Covers S d d' :=
    fun d' h1 h2 h3 => (Covers.refl hcb).congr h1 h2 h3
  cases c with
  | insert s => exact covers_edit hcb (SRel.insert d.text s d.cursor.position hc.1 hc.2).ok rfl
  | delete =>
    exact covers_edit hcb (SRel.delete (S := S) d.text ⟨d.cursor.position, Doc.deleteEnd S.segs d.text d.cursor.position⟩
      (le_deleteEnd _ _ _) (delete_cleanRange hc)).ok rfl
  | deleteRange p q => exact covers_edit hcb (SRel.delete (S := S) d.text ⟨lo p q, hi p q⟩ (lo_le_hi p q) hc).ok rfl
  | replace x => exact covers_replace hcb x
  | reload x => exact (covers_replace hcb x).congr rfl rfl rfl
  | undo =>
    simp only [Doc.step, Doc.undo1]
    have hgr := h.group
    have pop : (d.group = none ∨ d.group = some []) → Covers S d (match d.undo with
      | es :: rest => Doc.revertAll S.segs { d with group := none, undo := rest, redo := es :: d.redo } es
      | [] => { d with group := none }) := by
      intro hg
      have hb : base = d.text := by
        rcases hg with hg | hg
        · exact p3 hg
        · exact p4 _ hg
      have hu := h.undo
      cases hd : d.undo with
      | nil => exact refl' _ rfl rfl rfl
      | cons es rest =>
        rw [hd] at p1 hu
        obtain ⟨t0, hch, _⟩ := p1
        have hes : ∀ e ∈ es, EditOk S e := by
          generalize hbp : b.history.previous = bp at hu
          cases hu with
          | cons ho _ => exact orel_ok ho
        exact (covers_revertAll (d := { d with group := none, undo := rest, redo := es :: d.redo }) es hcb hes (by rw [← hb]; exact hch)).congr_left rfl rfl
    cases hdg : d.group with
    | none => exact pop (Or.inl hdg)
    | some es =>
      cases es with
      | nil => exact pop (Or.inr hdg)
      | cons e es =>
        rw [hdg] at hgr
        have hes : ∀ x ∈ e :: es, EditOk S x := by
          generalize b.group = bg at hgr
          cases hgr with
          | some hgr => exact forall2_ok hgr
        exact (covers_revertAll (d := { d with group := none }) (e :: es) hcb hes (p4 _ hdg)).congr_left rfl rfl
  | redo =>
    simp only [Doc.step, Doc.redo1]
    have hr := h.redo
    cases hd : d.redo with
    | nil => exact Covers.refl hcb
    | cons es rest =>
      have hb : base = d.text := by
        rcases hc with hc | hc | hc
        · rw [hd] at hc; cases hc
        · exact p3 hc
        · exact p4 _ hc
      rw [hd] at p2 hr
      obtain ⟨t1, hch, _⟩ := p2
      have hes : ∀ e ∈ es, EditOk S e := by
        generalize hbp : b.history.next = bp at hr
        cases hr with
        | cons ho _ => exact orel_ok ho
      exact (covers_applyAll (d := { d with undo := es :: d.undo, redo := rest }) es hcb hes (by rw [← hb]; exact hch)).congr_left rfl rfl
  | startGroup => exact refl' _ rfl rfl rfl
  | endGroup =>
    simp only [Doc.step, Doc.endGroup]
    split
    · exact refl' _ rfl rfl rfl
    · exact refl' _ rfl rfl rfl
  | move m => exact refl' _ rfl rfl rfl
  | setCursor p => exact refl' _ rfl rfl rfl
  | setCallback v => exact absurd rfl (hs v)
  | saved => exact refl' _ rfl rfl rfl

/-- **C25.** With a change callback set, a clean call invokes it with some positions `ps` (in this order, after the earlier calls).
If the text changed, `ps` is not empty; and every place `q` of the old text at or before all reported positions is still a place of the new
text, with the same text before it. -/
theorem C25_callback_covers_changes (S : Segmenter) (A : Alloc) (b : Buf) (d : Doc) (c : Cmd) (h : Reached S A b d)
    (hcb : b.callback = true) (hs : ∀ v, c ≠ .setCallback v) (hc : CleanCmd S.segs d c) :
    ∃ b' t t' ps, exec S A b c = .ok b' ∧ b.data.toStr = .ok t ∧ b'.data.toStr = .ok t' ∧ b'.log = b.log ++ ps ∧
      (t ≠ t' → ps ≠ []) ∧
      (∀ q x y, (∀ p ∈ ps, AtOrBefore q p) → PlaceIn (S.segs t) q x y → ∃ y', PlaceIn (S.segs t') q x y') := by
  obtain ⟨s, hs'⟩ := h.tri
  obtain ⟨b', e1, t1⟩ := hs'.exec (A := A) c hc
  obtain ⟨_, ps, h1, h2, h3⟩ := covers_step hs'.sim (hs'.sim.face.callback.symm.trans hcb) c hc hs
  refine ⟨b', d.text, (d.step S.segs c).text, ps, e1, hs'.sim.face.data.toStr, t1.sim.face.data.toStr, ?_, h2, ?_⟩
  · rw [t1.sim.face.log, h1, hs'.sim.face.log]
  · rintro q x y hq ⟨a, z, ha, rfl, rfl, rfl⟩
    obtain ⟨w, hw⟩ := h3 a z ha hq
    exact ⟨w.flatten, a, w, hw, rfl, rfl, rfl⟩

/-- C25: without a callback nothing is ever reported. -/
theorem C25_no_callback (S : Segmenter) (A : Alloc) (b : Buf) (d : Doc) (c : Cmd) (h : Reached S A b d)
    (hcb : b.callback = false) (hc : CleanCmd S.segs d c) : ∃ b', exec S A b c = .ok b' ∧ b'.log = b.log := by
  obtain ⟨s, hs'⟩ := h.tri
  obtain ⟨b', e1, t1⟩ := hs'.exec (A := A) c hc
  refine ⟨b', e1, ?_⟩
  rw [t1.sim.face.log, hs'.sim.face.log]
  have hd : d.callback = false := hs'.sim.face.callback.symm.trans hcb
  have rep : ∀ (d : Doc) p, d.callback = false → (d.report p).log = d.log ∧ (d.report p).callback = false := by
    intro d p hd; unfold Doc.report
    split
    · rw [if_neg (by rw [hd]; simp)]; exact ⟨rfl, hd⟩
    · exact ⟨rfl, hd⟩
  have ap : ∀ (e : Edit) (d : Doc), d.callback = false → (d.apply S.segs e).log = d.log ∧ (d.apply S.segs e).callback = false :=
    fun e d hd => rep (d.setText S.segs e.after e.whole) _ hd
  have rv : ∀ (e : Edit) (d : Doc), d.callback = false → (d.revert S.segs e).log = d.log ∧ (d.revert S.segs e).callback = false :=
    fun e d hd => rep (d.setText S.segs e.before e.whole) _ hd
  have all : ∀ (f : Doc → Edit → Doc), (∀ e d, d.callback = false → (f d e).log = d.log ∧ (f d e).callback = false) →
      ∀ (es : List Edit) (d : Doc), d.callback = false → (es.foldl f d).log = d.log := by
    intro f hf es
    induction es with
    | nil => intro d _; rfl
    | cons e es ih => intro d hd; exact (ih _ (hf e d hd).2).trans (hf e d hd).1
  have ed : ∀ e : Edit, (d.edit S.segs e).log = d.log := by
    intro e
    unfold Doc.edit
    simp only
    split <;> exact (ap e d hd).1
  have rpl : ∀ x, (d.replace S.segs x).log = d.log := by
    intro x; unfold Doc.replace; split
    · rfl
    · exact ed _
  cases c with
  | insert s => exact ed _
  | delete => exact ed _
  | deleteRange p q => exact ed _
  | replace x => exact rpl x
  | reload x => exact rpl x
  | undo =>
    simp only [Doc.step, Doc.undo1]
    split
    · exact all _ rv _ _ hd
    · split
      · exact all _ rv _ _ hd
      · rfl
  | redo =>
    simp only [Doc.step, Doc.redo1]
    split
    · exact all _ ap _ _ hd
    · rfl
  | endGroup => simp only [Doc.step, Doc.endGroup]; split <;> rfl
  | startGroup => rfl
  | move m => rfl
  | setCursor p => rfl
  | setCallback v => rfl
  | saved => rfl

/-- Edits at three places, then undone as one group: the callback hears of each. -/
example : (execAll Demo.seg Demo.tight (Buf.fromContent Demo.tight 0 (Demo.s "ab\ncd"))
    [.setCallback true, .startGroup, .move (.to ⟨1, 1⟩), .insert (Demo.s "x"), .deleteRange ⟨0, 1⟩ ⟨0, 2⟩, .undo, .replace (Demo.s "q")]
      >>= fun b => .ok b.log) = .ok [⟨1, 1⟩, ⟨0, 1⟩, ⟨0, 1⟩, ⟨1, 1⟩, ⟨0, 0⟩] := by decide +kernel

/-! ### C46 -/

theorem exists_move {segs : Text → List Text} {t : Text} {c : Cursor} (m : Cursor.Move) (h : exists? segs t c.position = true) :
    exists? segs t (moveCursor segs t c m).position = true := by
  have tm : ∀ p, exists? segs t (tryMove segs t c p).position = true := by
    intro p; unfold tryMove
    split
    · assumption
    · exact h
  have tl : ∀ l, exists? segs t (tryLine segs t c l).position = true := by
    intro l; unfold tryLine
    simp only
    split
    · assumption
    · split
      · assumption
      · exact h
  cases m with
  | «to» p => exact tm p
  | up => simp only [moveCursor]; split; exact h; exact tl _
  | down => exact tl _
  | left => simp only [moveCursor]; split; exact h; exact tm _
  | right => exact tm _
  | startOfLine => exact tm _
  | endOfLine => simp only [moveCursor]; split; exact tm _; exact h
  | lastLine => exact tm _
  | firstLine => exact tm _

theorem exists_zero (S : Segmenter) (t : Text) : exists? S.segs t ⟨0, 0⟩ = true := by
  unfold exists?
  rw [show locate (S.segs t) ⟨0, 0⟩ = some ([], S.segs t) from locate_eq_some.mpr ⟨rfl, rfl⟩]; rfl

theorem exists_placeCursor (S : Segmenter) (t : Text) (p : Position) : exists? S.segs t (placeCursor S.segs t p).position = true := by
  unfold placeCursor
  split
  · assumption
  · split
    · assumption
    · exact exists_zero S t

theorem edit_cursor (segs) (d : Doc) (e : Edit) (hw : e.whole = false) : (d.edit segs e).cursor = d.cursor ∧ (d.edit segs e).text = e.after := by
  have h1 : (d.apply segs e).cursor = d.cursor := by
    unfold Doc.apply Doc.report Doc.setText
    rw [hw]
    simp only
    split <;> rfl
  have h2 := (apply_same segs d e).2
  unfold Doc.edit
  simp only
  split <;> exact ⟨h1, h2⟩

theorem edit_cursor_whole (segs) (d : Doc) (e : Edit) (hw : e.whole = true) :
    (d.edit segs e).cursor = placeCursor segs e.after d.cursor.position ∧ (d.edit segs e).text = e.after := by
  have h1 : (d.apply segs e).cursor = placeCursor segs e.after d.cursor.position := by
    unfold Doc.apply Doc.report Doc.setText
    rw [hw]
    simp only
    split <;> rfl
  have h2 := (apply_same segs d e).2
  unfold Doc.edit
  simp only
  split <;> exact ⟨h1, h2⟩

theorem cursor_step {S : Segmenter} {d : Doc} (c : Cmd) (hc : CleanCmd S.segs d c) (hk : KeepsCursor c)
    (h : exists? S.segs d.text d.cursor.position = true) :
    exists? S.segs (d.step S.segs c).text (d.step S.segs c).cursor.position = true := by
  have rpl : ∀ x, exists? S.segs (d.replace S.segs x).text (d.replace S.segs x).cursor.position = true := by
    intro x; unfold Doc.replace
    split
    · exact h
    · obtain ⟨h1, h2⟩ := edit_cursor_whole S.segs d (Doc.replaceEdit d.text x) rfl
      rw [h1, h2]; exact exists_placeCursor S _ _
  obtain ⟨⟨a, z⟩, hl⟩ := Option.isSome_iff_exists.mp h
  obtain ⟨ha, hp⟩ := locate_eq_some.mp hl
  have common : ∀ t', (∃ y, S.segs t' = a ++ y) → exists? S.segs t' d.cursor.position = true := by
    rintro t' ⟨y, hy⟩
    unfold exists?
    rw [show locate (S.segs t') d.cursor.position = some (a, y) from locate_eq_some.mpr ⟨hy, hp⟩]; rfl
  cases c with
  | insert s =>
    obtain ⟨h1, h2⟩ := edit_cursor S.segs d (Doc.insertEdit S.segs d.text s d.cursor.position) rfl
    simp only [Doc.step, h1, h2]
    apply common
    refine ⟨S.segs s ++ z, ?_⟩
    simp only [Doc.insertEdit, insertAt, hl]
    rw [hc.1 a z hl, List.append_assoc]
  | delete =>
    obtain ⟨h1, h2⟩ := edit_cursor S.segs d (Doc.deleteEdit S.segs d.text d.cursor.position (Doc.deleteEnd S.segs d.text d.cursor.position)) rfl
    simp only [Doc.step, h1, h2]
    apply common
    refine ⟨afterEnd (S.segs d.text) (Doc.deleteEnd S.segs d.text d.cursor.position), ?_⟩
    simp only [Doc.deleteEdit, Spec.deleteRange, hl]
    exact hc a z hl
  | deleteRange p q => cases hk
  | replace x => exact rpl x
  | reload x => exact rpl x
  | undo => cases hk
  | redo => cases hk
  | endGroup => simp only [Doc.step, Doc.endGroup]; split <;> exact h
  | startGroup => exact h
  | move m => exact exists_move m h
  | setCursor p => cases hk
  | setCallback v => exact h
  | saved => exact h

/-- **C46.** An in-bounds cursor is still in bounds after `insert`, `delete`, `replace`, `reload`, any movement, and group, save or callback
calls. -/
theorem C46_cursor_stays_in_bounds (S : Segmenter) (A : Alloc) (b : Buf) (d : Doc) (c : Cmd) (h : Reached S A b d)
    (hc : CleanCmd S.segs d c) (hk : KeepsCursor c) (hb : b.data.inBounds S b.cursor.position = .ok true) :
    ∃ b', exec S A b c = .ok b' ∧ b'.data.inBounds S b'.cursor.position = .ok true := by
  obtain ⟨s, hs⟩ := h.tri
  obtain ⟨b', e1, t1⟩ := hs.exec (A := A) c hc
  refine ⟨b', e1, ?_⟩
  rw [t1.sim.face.data.inBounds, t1.sim.face.cursor]
  rw [hs.sim.face.data.inBounds, hs.sim.face.cursor] at hb
  congr 1
  exact cursor_step c hc hk (Except.ok.inj hb)

/-- C46: so with only such calls, the cursor is in bounds in every reachable state. -/
theorem C46_always_in_bounds (S : Segmenter) (A : Alloc) (b0 : Buf) (d0 : Doc) (t0 : Text) (cs : List Cmd)
    (h0 : Start A b0 d0 t0) (hc : CleanCmds S.segs d0 cs) (hk : ∀ c ∈ cs, KeepsCursor c) :
    ∃ b, execAll S A b0 cs = .ok b ∧ b.data.inBounds S b.cursor.position = .ok true := by
  have h0b : b0.data.inBounds S b0.cursor.position = .ok true := by
    have t0 := h0.tri (S := S)
    rw [t0.sim.face.data.inBounds, t0.sim.face.cursor]
    congr 1
    cases h0 <;> exact exists_zero S _
  have := Reached.start (S := S) h0
  clear h0
  induction cs generalizing b0 d0 with
  | nil => exact ⟨b0, rfl, h0b⟩
  | cons c cs ih =>
    obtain ⟨b1, e1, hb1⟩ := C46_cursor_stays_in_bounds S A b0 d0 c this hc.1 (hk c (by simp)) h0b
    obtain ⟨b2, e2, hb2⟩ := ih b1 (d0.step S.segs c) hc.2 (fun x hx => hk x (by simp [hx])) hb1 (this.step hc.1 e1)
    exact ⟨b2, by simp only [execAll, e1, Except.ok_bind', e2], hb2⟩

/-- `delete_range` can put the cursor out of bounds. -/
example : (execAll Demo.seg Demo.tight (Buf.fromContent Demo.tight 0 (Demo.s "ab\ncd")) [.move (.to ⟨1, 1⟩), .deleteRange ⟨0, 0⟩ ⟨1, 0⟩]
    >>= fun b => b.data.inBounds Demo.seg b.cursor.position) = .ok false := by decide +kernel
example : (execAll Demo.seg Demo.tight (Buf.fromContent Demo.tight 0 (Demo.s "ab\ncd"))
    [.move (.to ⟨1, 1⟩), .insert (Demo.s "é\n"), .move .down, .delete, .delete, .replace (Demo.s "z")]
    >>= fun b => b.data.inBounds Demo.seg b.cursor.position) = .ok true := by decide +kernel

/-! ### C31 -/

/-- **C31.** `line_count` is the number of newline characters plus one. -/
theorem C31_line_count (b : Buf) (t : Text) (h : b.data.toStr = .ok t) :
    b.lineCount = .ok (t.count '\n' + 1) ∧ b.lineCount = .ok (splitNl t).length := by
  have e : countNl t = t.count '\n' := by
    unfold countNl; rw [List.count, List.countP_eq_length_filter]
  constructor
  · simp only [lineCount, h, Except.ok_bind', e]; rfl
  · simp only [lineCount, h, Except.ok_bind', length_splitNl]; rfl

/-- C31: in text without carriage returns, line `l` exists exactly when `l < line_count`. -/
theorem C31_line_exists (S : Segmenter) (A : Alloc) (b : Buf) (d : Doc) (t : Text) (n l : Nat) (h : Reached S A b d) (ht : b.data.toStr = .ok t)
    (hcr : '\r' ∉ t) (hn : b.lineCount = .ok n) : b.data.inBounds S ⟨l, 0⟩ = .ok (decide (l < n)) := by
  obtain ⟨s, hs⟩ := h.tri
  have hd := hs.sim.face.data
  obtain rfl := Except.ok.inj (hd.toStr.symm.trans ht)
  obtain rfl := Except.ok.inj ((C31_line_count b d.text ht).2.symm.trans hn)
  rw [hd.inBounds]
  congr 1
  rw [Bool.eq_iff_iff, exists_iff_line S hcr, decide_eq_true_iff]
  constructor
  · rintro ⟨x, hx, _⟩
    exact (List.getElem?_eq_some_iff.mp hx).1
  · intro hl
    exact ⟨_, List.getElem?_eq_getElem hl, Nat.zero_le _⟩

example : (Buf.fromContent Demo.tight 0 (Demo.s "a\n\nb\n")).lineCount = .ok 4 := by decide +kernel

end Scribe.Props
