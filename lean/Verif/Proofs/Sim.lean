import Verif.Proofs.Undo
import Mathlib.Data.List.Forall2
/-! Buffers refine documents. -/
namespace Scribe
open Spec Buf
variable {S : Segmenter} {A : Alloc}

/-- A list of consecutive edits leading from one text to another. -/
def Chain : List Edit → Text → Text → Prop
  | [], t, t' => t = t'
  | e :: es, t, t' => e.before = t ∧ Chain es e.after t'

/-- The undo stack leads back from `t`. -/
def Past : List (List Edit) → Text → Prop
  | [], _ => True
  | es :: rest, t => ∃ t0, Chain es t0 t ∧ Past rest t0

/-- The redo stack leads on from `t`. -/
def Future : List (List Edit) → Text → Prop
  | [], _ => True
  | es :: rest, t => ∃ t1, Chain es t t1 ∧ Future rest t1

theorem Chain.append {a b : List Edit} {t u v : Text} (h : Chain a t u) (h' : Chain b u v) : Chain (a ++ b) t v := by
  induction a generalizing t with
  | nil => cases h; exact h'
  | cons e es ih => exact ⟨h.1, ih h.2⟩

theorem Chain.unsnoc {a : List Edit} {e : Edit} {t v : Text} (h : Chain (a ++ [e]) t v) : Chain a t e.before ∧ e.after = v := by
  induction a generalizing t with
  | nil => exact ⟨h.1.symm, h.2⟩
  | cons x xs ih => exact ⟨⟨h.1, (ih h.2).1⟩, (ih h.2).2⟩

/-- Consistency of a document's history. -/
def Inv (d : Doc) : Prop :=
  ∃ base, Past d.undo base ∧ Future d.redo base ∧
    match d.group with
    | none => base = d.text
    | some es => Chain es base d.text

/-- A stored operation performs a group of edits. -/
inductive ORel (S : Segmenter) : Op → List Edit → Prop
  | simple {op e} (h : SRel S op e) : ORel S (.simple op) [e]
  | group {ops es} (h : List.Forall₂ (SRel S) ops es) : ORel S (.group ops) es

/-- The buffer refines the document. -/
structure Sim (S : Segmenter) (b : Buf) (d : Doc) : Prop where
  face : Face S b d
  undo : List.Forall₂ (ORel S) b.history.previous d.undo
  redo : List.Forall₂ (ORel S) b.history.next d.redo
  group : Option.Rel (List.Forall₂ (SRel S)) b.group d.group
  mark : b.history.mark = d.mark
  inv : Inv d

/-- Two documents that differ only in text, cursor and log. -/
def SameHist (d d' : Doc) : Prop := d'.undo = d.undo ∧ d'.redo = d.redo ∧ d'.group = d.group ∧ d'.mark = d.mark

theorem report_same (d : Doc) (p : Option Position) : SameHist d (d.report p) ∧ (d.report p).text = d.text := by
  unfold Doc.report
  split
  · split <;> exact ⟨⟨rfl, rfl, rfl, rfl⟩, rfl⟩
  · exact ⟨⟨rfl, rfl, rfl, rfl⟩, rfl⟩

theorem apply_same (segs) (d : Doc) (e : Edit) : SameHist d (d.apply segs e) ∧ (d.apply segs e).text = e.after :=
  report_same (d.setText segs e.after e.whole) _

theorem revert_same (segs) (d : Doc) (e : Edit) : SameHist d (d.revert segs e) ∧ (d.revert segs e).text = e.before :=
  report_same (d.setText segs e.before e.whole) _

theorem SameHist.trans {a b c : Doc} (h : SameHist a b) (h' : SameHist b c) : SameHist a c :=
  ⟨h'.1.trans h.1, h'.2.1.trans h.2.1, h'.2.2.1.trans h.2.2.1, h'.2.2.2.trans h.2.2.2⟩

theorem applyAll_same (segs) (es : List Edit) (d : Doc) {t' : Text} (h : Chain es d.text t') :
    SameHist d (d.applyAll segs es) ∧ (d.applyAll segs es).text = t' := by
  induction es generalizing d with
  | nil => exact ⟨⟨rfl, rfl, rfl, rfl⟩, h⟩
  | cons e es ih =>
    obtain ⟨h1, h2⟩ := apply_same segs d e
    obtain ⟨h3, h4⟩ := ih (d.apply segs e) (by rw [h2]; exact h.2)
    exact ⟨h1.trans h3, h4⟩

theorem revertAll_snoc (segs) (es : List Edit) (e : Edit) (d : Doc) :
    d.revertAll segs (es ++ [e]) = (d.revert segs e).revertAll segs es := by
  unfold Doc.revertAll; rw [List.reverse_append]; rfl

theorem revertAll_same (segs) (es : List Edit) (d : Doc) {t : Text} (h : Chain es t d.text) :
    SameHist d (d.revertAll segs es) ∧ (d.revertAll segs es).text = t := by
  induction es using List.reverseRecOn generalizing d with
  | nil => exact ⟨⟨rfl, rfl, rfl, rfl⟩, h.symm⟩
  | append_singleton es e ih =>
    rw [revertAll_snoc]
    obtain ⟨h1, h2⟩ := revert_same segs d e
    obtain ⟨h3, h4⟩ := ih (d.revert segs e) (by rw [h2]; exact (h.unsnoc).1)
    exact ⟨h1.trans h3, h4⟩

theorem runAll_sim {b : Buf} {d : Doc} {ops : List SOp} {es : List Edit} {t' : Text} (h : Face S b d)
    (hops : List.Forall₂ (SRel S) ops es) (hch : Chain es d.text t') :
    ∃ b', runAll S A b ops = .ok b' ∧ Face S b' (d.applyAll S.segs es) ∧ b'.history = b.history ∧ b'.group = b.group := by
  induction hops generalizing b d with
  | nil => exact ⟨b, rfl, h, rfl, rfl⟩
  | cons hop _ ih =>
    obtain ⟨b1, h1, h2, h3, h4⟩ := runOp_sim (A := A) h hop hch.1.symm
    obtain ⟨b2, k1, k2, k3, k4⟩ := ih h2 (by rw [(apply_same _ _ _).2]; exact hch.2)
    exact ⟨b2, by simp only [runAll, h1, Except.ok_bind', k1], k2, k3.trans h3, k4.trans h4⟩

theorem reverseAll_append (b : Buf) (x y : List SOp) :
    reverseAll S A b (x ++ y) = (reverseAll S A b x >>= fun b => reverseAll S A b y) := by
  induction x generalizing b with
  | nil => rfl
  | cons op x ih =>
    simp only [List.cons_append, reverseAll]
    cases reverseOp S A b op with
    | error e => rfl
    | ok b' => simp only [Except.ok_bind']; exact ih b'

theorem reverseAll_sim {b : Buf} {d : Doc} {ops : List SOp} {es : List Edit} {t : Text} (h : Face S b d)
    (hops : List.Forall₂ (SRel S) ops es) (hch : Chain es t d.text) :
    ∃ b', reverseAll S A b ops.reverse = .ok b' ∧ Face S b' (d.revertAll S.segs es) ∧ b'.history = b.history ∧ b'.group = b.group := by
  induction es using List.reverseRecOn generalizing b d ops with
  | nil => cases hops; exact ⟨b, rfl, h, rfl, rfl⟩
  | append_singleton es e ih =>
    obtain ⟨ops', op, rfl, hops', hop⟩ : ∃ ops' op, ops = ops' ++ [op] ∧ List.Forall₂ (SRel S) ops' es ∧ SRel S op e := by
      rcases List.eq_nil_or_concat ops with rfl | ⟨ops', op, rfl⟩
      · have := hops.length_eq; simp at this
      · rw [List.concat_eq_append] at hops ⊢
        have hlen : ops'.length = es.length := by have := hops.length_eq; simpa using this
        refine ⟨ops', op, rfl, ?_, ?_⟩
        · have := List.forall₂_take es.length hops
          rw [List.take_left, ← hlen, List.take_left] at this; exact this
        · have := List.forall₂_drop es.length hops
          rw [List.drop_left, ← hlen, List.drop_left] at this
          cases this; assumption
    obtain ⟨c1, c2⟩ := hch.unsnoc
    obtain ⟨b1, h1, h2, h3, h4⟩ := reverseOp_sim (A := A) h hop c2.symm
    obtain ⟨b2, k1, k2, k3, k4⟩ := ih h2 hops' (by rw [(revert_same _ _ _).2]; exact c1)
    refine ⟨b2, ?_, by rw [revertAll_snoc]; exact k2, k3.trans h3, k4.trans h4⟩
    simp only [List.reverse_append, List.reverse_cons, List.reverse_nil, List.nil_append, List.cons_append, reverseAll, h1,
      Except.ok_bind', k1]

theorem runAny_sim {b : Buf} {d : Doc} {op : Op} {es : List Edit} {t' : Text} (h : Face S b d)
    (hop : ORel S op es) (hch : Chain es d.text t') :
    ∃ b', runAny S A b op = .ok b' ∧ Face S b' (d.applyAll S.segs es) ∧ b'.history = b.history ∧ b'.group = b.group := by
  cases hop with
  | simple hop =>
    obtain ⟨b1, h1, h2, h3, h4⟩ := runOp_sim (A := A) h hop hch.1.symm
    exact ⟨b1, by simp only [runAny, h1, Except.ok_bind']; rfl, h2, h3, h4⟩
  | group hops => exact runAll_sim h hops hch

theorem reverseAny_sim {b : Buf} {d : Doc} {op : Op} {es : List Edit} {t : Text} (h : Face S b d)
    (hop : ORel S op es) (hch : Chain es t d.text) :
    ∃ b', reverseAny S A b op = .ok b' ∧ Face S b' (d.revertAll S.segs es) ∧ b'.history = b.history ∧ b'.group = b.group := by
  cases hop with
  | simple hop => exact reverseOp_sim h hop (Chain.unsnoc (a := []) hch).2.symm
  | group hops => exact reverseAll_sim h hops hch

/-- A new edit. -/
theorem edit_sim {b b1 : Buf} {d : Doc} {op : SOp} {e : Edit} (h : Sim S b d) (hop : SRel S op e) (ht : d.text = e.before)
    (h2 : Face S b1 (d.apply S.segs e)) (h3 : b1.history = b.history) (h4 : b1.group = b.group) :
    Sim S (b1.store op) (d.edit S.segs e) := by
  obtain ⟨⟨s1, s2, s3, s4⟩, s5⟩ := apply_same S.segs d e
  obtain ⟨base, p1, p2, p3⟩ := h.inv
  have hg := h.group
  rw [← h4] at hg
  rw [← s3] at hg p3
  rw [← s1] at p1
  rw [← s2] at p2
  unfold Doc.edit
  simp only
  unfold Buf.store
  cases hbg : b1.group with
  | none =>
    rw [hbg] at hg
    cases hdg : (d.apply S.segs e).group with
    | some es => rw [hdg] at hg; cases hg
    | none =>
      rw [hdg] at p3
      simp only at p3
      refine ⟨⟨h2.data, h2.cursor, h2.callback, h2.log⟩, ?_, .nil, ?_, ?_, ?_⟩
      · simp only [History.add, Doc.push]
        rw [h3, s1]
        exact .cons (.simple hop) h.undo
      · show Option.Rel _ none (d.apply S.segs e).group
        rw [hdg]
        exact .none
      · simp only [History.add, Doc.push]
        rw [h3, s1, s4, h.mark]
        have hlen := h.undo.length_eq
        cases d.mark with
        | none => rfl
        | some m =>
          simp only [List.length_cons, Option.filter_some, hlen]
          by_cases hm : m ≤ d.undo.length
          · rw [if_neg (by omega), if_pos (by simpa using hm)]
          · rw [if_pos (by omega), if_neg (by simpa using hm)]
      · refine ⟨(d.apply S.segs e).text, ⟨base, ⟨by rw [p3, ← ht], s5.symm⟩, p1⟩, trivial, ?_⟩
        show match (d.apply S.segs e).group with | none => _ | some es => _
        rw [hdg]; rfl
  | some ops =>
    rw [hbg] at hg
    cases hdg : (d.apply S.segs e).group with
    | none => rw [hdg] at hg; cases hg
    | some es =>
      rw [hdg] at hg p3
      simp only at p3
      cases hg with
      | some hg =>
      refine ⟨⟨h2.data, h2.cursor, h2.callback, h2.log⟩, ?_, ?_, ?_, ?_, ?_⟩
      · simp only; rw [h3, s1]; exact h.undo
      · simp only; rw [h3, s2]; exact h.redo
      · exact .some (List.rel_append hg (.cons hop .nil))
      · simp only; rw [h3, s4]; exact h.mark
      · exact ⟨base, p1, p2, p3.append ⟨ht.symm, s5.symm⟩⟩

theorem inv_group (d : Doc) : (∃ base, Past d.undo base ∧ Future d.redo base ∧
    (d.group = none → base = d.text) ∧ ∀ es, d.group = some es → Chain es base d.text) ↔ Inv d := by
  constructor
  · rintro ⟨base, h1, h2, h3, h4⟩
    refine ⟨base, h1, h2, ?_⟩
    cases hg : d.group with
    | none => exact h3 hg
    | some es => exact h4 es hg
  · rintro ⟨base, h1, h2, h3⟩
    refine ⟨base, h1, h2, fun h => ?_, fun es h => ?_⟩ <;> rw [h] at h3 <;> exact h3

/-- Undo of the last stored step. -/
theorem pop_sim {b : Buf} {d : Doc} (h : Sim S b d) (hg : d.group = none ∨ d.group = some []) :
    ∃ b', (match ({ b with group := none } : Buf).history.back with
      | (some op, hist) => reverseAny S A { b with group := none, history := hist } op
      | (none, hist) => .ok { b with group := none, history := hist }) = .ok b' ∧
      Sim S b' (match d.undo with
        | es :: rest => Doc.revertAll S.segs { d with group := none, undo := rest, redo := es :: d.redo } es
        | [] => { d with group := none }) := by
  obtain ⟨base, p1, p2, p3, p4⟩ := (inv_group d).mpr h.inv
  have hbase : base = d.text := by
    rcases hg with hg | hg
    · exact p3 hg
    · exact p4 [] hg
  subst hbase
  have hu := h.undo
  cases hp : b.history.previous with
  | nil =>
    rw [hp] at hu
    cases hdu : d.undo with
    | cons es rest => rw [hdu] at hu; cases hu
    | nil =>
      simp only [History.back, hp]
      refine ⟨_, rfl, ⟨h.face.data, h.face.cursor, h.face.callback, h.face.log⟩, ?_, h.redo, .none, h.mark, ?_⟩
      · show List.Forall₂ _ b.history.previous []
        rw [hp]; exact .nil
      · exact ⟨d.text, trivial, p2, rfl⟩
  | cons op rest =>
    rw [hp] at hu
    cases hdu : d.undo with
    | nil => rw [hdu] at hu; cases hu
    | cons es drest =>
      rw [hdu] at hu p1
      cases hu with
      | cons hop hrest =>
      obtain ⟨t0, c1, c2⟩ := p1
      simp only [History.back, hp]
      have hface : Face S { b with group := none, history := { b.history with previous := rest, next := op :: b.history.next } }
          { d with group := none, undo := drest, redo := es :: d.redo } :=
        ⟨h.face.data, h.face.cursor, h.face.callback, h.face.log⟩
      obtain ⟨b', k1, k2, k3, k4⟩ := reverseAny_sim (A := A) hface hop c1
      obtain ⟨⟨s1, s2, s3, s4⟩, s5⟩ := revertAll_same S.segs es
        { d with group := none, undo := drest, redo := es :: d.redo } c1
      refine ⟨b', k1, k2, ?_, ?_, ?_, ?_, ?_⟩
      · rw [k3, s1]; exact hrest
      · rw [k3, s2]; exact .cons hop h.redo
      · rw [k4, s3]; exact .none
      · rw [k3, s4]; exact h.mark
      · refine ⟨t0, by rw [s1]; exact c2, by rw [s2]; exact ⟨d.text, c1, p2⟩, ?_⟩
        rw [s3]; exact s5.symm

theorem undo_sim {b : Buf} {d : Doc} (h : Sim S b d) :
    ∃ b', undo S A b = .ok b' ∧ Sim S b' (d.undo1 S.segs) := by
  have hgr := h.group
  unfold undo Doc.undo1
  simp only
  have conv : ∀ b : Buf, (match ({ b with group := none } : Buf).history.back with
      | (some op, hist) => reverseAny S A { b with group := none, history := hist } op
      | (none, hist) => .ok { b with group := none, history := hist }) =
      (match ({ b with group := none } : Buf).history.back.1 with
      | some op => reverseAny S A { b with group := none, history := ({ b with group := none } : Buf).history.back.2 } op
      | none => pure { b with group := none, history := ({ b with group := none } : Buf).history.back.2 }) := by
    intro b
    rcases ({ b with group := none } : Buf).history.back with ⟨_ | op, hist⟩ <;> rfl
  cases hbg : b.group with
  | none =>
    rw [hbg] at hgr
    cases hdg : d.group with
    | some es => rw [hdg] at hgr; cases hgr
    | none =>
      obtain ⟨b', h1, h2⟩ := pop_sim (A := A) h (Or.inl hdg)
      refine ⟨b', ?_, ?_⟩
      · rw [conv] at h1; exact h1
      · exact h2
  | some ops =>
    rw [hbg] at hgr
    cases hdg : d.group with
    | none => rw [hdg] at hgr; cases hgr
    | some es =>
      rw [hdg] at hgr
      cases hgr with
      | some hgr =>
      cases hgr with
      | nil =>
        obtain ⟨b', h1, h2⟩ := pop_sim (A := A) h (Or.inr hdg)
        refine ⟨b', ?_, ?_⟩
        · rw [conv] at h1; exact h1
        · exact h2
      | @cons op e ops es hop hops =>
        simp only [List.isEmpty_cons, Bool.false_eq_true, if_false]
        obtain ⟨base, p1, p2, p3, p4⟩ := (inv_group d).mpr h.inv
        have hch := p4 _ hdg
        have hface : Face S { b with group := none } { d with group := none } :=
          ⟨h.face.data, h.face.cursor, h.face.callback, h.face.log⟩
        obtain ⟨b', k1, k2, k3, k4⟩ := reverseAny_sim (A := A) hface (.group (.cons hop hops)) hch
        obtain ⟨⟨s1, s2, s3, s4⟩, s5⟩ := revertAll_same S.segs (e :: es) { d with group := none } hch
        refine ⟨b', k1, k2, ?_, ?_, ?_, ?_, ?_⟩
        · rw [k3, s1]; exact h.undo
        · rw [k3, s2]; exact h.redo
        · rw [k4, s3]; exact .none
        · rw [k3, s4]; exact h.mark
        · refine ⟨base, by rw [s1]; exact p1, by rw [s2]; exact p2, ?_⟩
          rw [s3]; exact s5.symm

theorem redo_sim {b : Buf} {d : Doc} (h : Sim S b d) (hc : d.redo = [] ∨ d.group = none ∨ d.group = some []) :
    ∃ b', redo S A b = .ok b' ∧ Sim S b' (d.redo1 S.segs) := by
  obtain ⟨base, p1, p2, p3, p4⟩ := (inv_group d).mpr h.inv
  have hr := h.redo
  unfold redo Doc.redo1
  cases hn : b.history.next with
  | nil =>
    rw [hn] at hr
    cases hdr : d.redo with
    | cons => rw [hdr] at hr; cases hr
    | nil =>
      simp only [History.forth, hn]
      exact ⟨b, rfl, h⟩
  | cons op rest =>
    rw [hn] at hr
    cases hdr : d.redo with
    | nil => rw [hdr] at hr; cases hr
    | cons es drest =>
      have hbase : base = d.text := by
        rcases hc with hc | hg | hg
        · rw [hdr] at hc; cases hc
        · exact p3 hg
        · exact p4 [] hg
      subst hbase
      rw [hdr] at hr p2
      cases hr with
      | cons hop hrest =>
      obtain ⟨t1, c1, c2⟩ := p2
      simp only [History.forth, hn]
      have hface : Face S { b with history := { b.history with next := rest, previous := op :: b.history.previous } }
          { d with undo := es :: d.undo, redo := drest } :=
        ⟨h.face.data, h.face.cursor, h.face.callback, h.face.log⟩
      obtain ⟨b', k1, k2, k3, k4⟩ := runAny_sim (A := A) hface hop c1
      obtain ⟨⟨s1, s2, s3, s4⟩, s5⟩ := applyAll_same S.segs es { d with undo := es :: d.undo, redo := drest } c1
      refine ⟨b', k1, k2, ?_, ?_, ?_, ?_, ?_⟩
      · rw [k3, s1]; exact .cons hop h.undo
      · rw [k3, s2]; exact hrest
      · rw [k4, s3]; exact h.group
      · rw [k3, s4]; exact h.mark
      · apply (inv_group _).mp
        refine ⟨t1, by rw [s1]; exact ⟨d.text, c1, p1⟩, by rw [s2]; exact c2, ?_, ?_⟩
        · intro _; exact s5.symm
        · intro es' hes
          rw [s3] at hes
          rcases hc with hc | hg | hg
          · rw [hdr] at hc; cases hc
          · simp only [hg] at hes; cases hes
          · simp only [hg] at hes; cases hes; exact s5.symm

theorem endGroup_sim {b : Buf} {d : Doc} (h : Sim S b d) : Sim S b.endGroup d.endGroup := by
  have hgr := h.group
  obtain ⟨base, p1, p2, p3, p4⟩ := (inv_group d).mpr h.inv
  unfold Buf.endGroup Doc.endGroup
  cases hbg : b.group with
  | none =>
    rw [hbg] at hgr
    cases hdg : d.group with
    | some es => rw [hdg] at hgr; cases hgr
    | none =>
      refine ⟨⟨h.face.data, h.face.cursor, h.face.callback, h.face.log⟩, h.undo, h.redo, ?_, h.mark, base, p1, p2, p3 hdg⟩
      simp only; rw [hbg]; exact .none
  | some ops =>
    rw [hbg] at hgr
    cases hdg : d.group with
    | none => rw [hdg] at hgr; cases hgr
    | some es =>
      rw [hdg] at hgr
      cases hgr with
      | some hgr =>
      have hch := p4 _ hdg
      cases hgr with
      | nil =>
        exact ⟨⟨h.face.data, h.face.cursor, h.face.callback, h.face.log⟩, h.undo, h.redo, .none, h.mark, base, p1, p2, hch⟩
      | @cons op e ops es hop hops =>
        simp only [List.isEmpty_cons, Bool.false_eq_true, if_false]
        refine ⟨⟨h.face.data, h.face.cursor, h.face.callback, h.face.log⟩, .cons (.group (.cons hop hops)) h.undo, .nil, .none, ?_, ?_⟩
        · simp only [History.add, Doc.push]
          rw [h.mark]
          have hlen := h.undo.length_eq
          cases d.mark with
          | none => rfl
          | some m =>
            simp only [List.length_cons, Option.filter_some, hlen]
            by_cases hm : m ≤ d.undo.length
            · rw [if_neg (by omega), if_pos (by simpa using hm)]
            · rw [if_pos (by omega), if_neg (by simpa using hm)]
        · exact ⟨d.text, ⟨base, hch, p1⟩, trivial, rfl⟩

theorem deleteRange_sim {b : Buf} {d : Doc} (h : Sim S b d) (r : Range) (hr : AtOrBefore r.start r.stop)
    (hc : CleanRange S.segs d.text r.start r.stop) :
    ∃ b', deleteRange S A b r = .ok b' ∧ Sim S b' (d.edit S.segs (Doc.deleteEdit S.segs d.text r.start r.stop)) := by
  have hop := SRel.delete (S := S) d.text r hr hc
  obtain ⟨b1, h1, h2, h3, h4⟩ := runOp_sim (A := A) h.face hop rfl
  refine ⟨_, ?_, edit_sim h hop rfl h2 h3 h4⟩
  unfold Buf.deleteRange
  have : runOp S A b (.delete none r) = runOp S A b (.delete (readRange S.segs d.text r.start r.stop) r) := rfl
  rw [this, h1]; rfl

/-- From an in-bounds cursor with nothing to its right on its line and no next line, there is nothing to delete. -/
theorem delete_cleanRange {t : Text} {p : Position} (hc : CleanDelete S.segs t p (Doc.deleteEnd S.segs t p)) :
    CleanRange S.segs t p (Doc.deleteEnd S.segs t p) := by
  refine ⟨hc, ?_⟩
  by_cases he : exists? S.segs t (Doc.deleteEnd S.segs t p) = true
  · exact Or.inl he
  · right
    cases hl : locate (S.segs t) p with
    | none => rw [Spec.deleteRange, hl]
    | some x =>
      obtain ⟨a, b⟩ := x
      obtain ⟨hab, hp⟩ := locate_eq_some.mp hl
      cases b with
      | cons c b =>
        exfalso
        apply he
        unfold Doc.deleteEnd
        split
        next h => exact h
        next h =>
          have h1 : locate (S.segs t) (step p c) = some (a ++ [c], b) :=
            locate_eq_some.mpr ⟨by rw [hab]; simp, by rw [endPos_concat, hp]⟩
          unfold step at h1
          split at h1
          · unfold exists?; rw [h1]; rfl
          · exfalso; apply h; unfold exists?; rw [h1]; rfl
      | nil =>
        rw [Spec.deleteRange, hl]
        simp only
        obtain ⟨c, hc⟩ := GapBuffer.afterEnd_suffix (cs := S.segs t) (q := Doc.deleteEnd S.segs t p)
        have : afterEnd (S.segs t) (Doc.deleteEnd S.segs t p) = [] := by
          unfold afterEnd
          have h1 : locate (S.segs t) (Doc.deleteEnd S.segs t p) = none := by
            unfold exists? at he; simpa using he
          rw [h1]
          simp only
          cases h2 : locate (S.segs t) ⟨(Doc.deleteEnd S.segs t p).line + 1, 0⟩ with
          | none => rfl
          | some y =>
            exfalso
            obtain ⟨a', b'⟩ := y
            obtain ⟨k1, k2⟩ := locate_eq_some.mp h2
            have hle : AtOrBefore (endPos a') (endPos a) := by
              have e : a = a' ++ b' := by rw [← k1, hab]; simp
              rw [e]; exact endPos_le_append _ _
            have hge : p.line ≤ (Doc.deleteEnd S.segs t p).line := by unfold Doc.deleteEnd; split <;> simp
            rw [k2, hp] at hle
            unfold AtOrBefore at hle
            simp at hle; omega
        rw [this, ← S.join t, hab]; simp

theorem le_deleteEnd (segs) (t : Text) (p : Position) : AtOrBefore p (Doc.deleteEnd segs t p) := by
  unfold Doc.deleteEnd AtOrBefore
  split
  · right; simp
  · left; simp

theorem replace_sim {b : Buf} {d : Doc} (h : Sim S b d) (c : Text) :
    ∃ b', replace S A b c = .ok b' ∧ Sim S b' (d.replace S.segs c) := by
  unfold replace Doc.replace
  rw [h.face.data.toStr, Except.ok_bind']
  split
  · exact ⟨b, rfl, h⟩
  · have hop := SRel.replace (S := S) d.text c
    obtain ⟨b1, h1, h2, h3, h4⟩ := runOp_sim (A := A) h.face hop rfl
    exact ⟨_, by rw [h1]; rfl, edit_sim h hop rfl h2 h3 h4⟩

/-- **Refinement.** Every clean call succeeds and preserves the relation. -/
theorem exec_sim {b : Buf} {d : Doc} (h : Sim S b d) (c : Cmd) (hc : CleanCmd S.segs d c) :
    ∃ b', exec S A b c = .ok b' ∧ Sim S b' (d.step S.segs c) := by
  cases c with
  | insert s =>
    have hop := SRel.insert (S := S) d.text s d.cursor.position hc.1 hc.2
    obtain ⟨b1, h1, h2, h3, h4⟩ := runOp_sim (A := A) h.face hop rfl
    refine ⟨_, ?_, edit_sim h hop rfl h2 h3 h4⟩
    simp only [exec, Buf.insert, h.face.cursor, h1, Except.ok_bind']; rfl
  | delete =>
    obtain ⟨b', h1, h2⟩ := deleteRange_sim (A := A) h ⟨d.cursor.position, Doc.deleteEnd S.segs d.text d.cursor.position⟩
      (le_deleteEnd _ _ _) (delete_cleanRange hc)
    refine ⟨b', ?_, h2⟩
    simp only [exec, delete, h.face.cursor, h.face.data.inBounds, Except.ok_bind']
    rw [← h1, ← range_new_of_le (le_deleteEnd S.segs d.text d.cursor.position)]
    unfold Doc.deleteEnd
    by_cases he : exists? S.segs d.text ⟨d.cursor.position.line, d.cursor.position.offset + 1⟩ = true
    · simp [he]
    · simp [he]
  | deleteRange p q =>
    simp only [exec, range_new]
    exact deleteRange_sim h ⟨lo p q, hi p q⟩ (lo_le_hi p q) hc
  | replace c => exact replace_sim h c
  | undo => exact undo_sim h
  | redo => exact redo_sim h hc
  | startGroup =>
    refine ⟨_, rfl, ?_⟩
    have hgr := h.group
    obtain ⟨base, p1, p2, p3, p4⟩ := (inv_group d).mpr h.inv
    unfold Buf.startGroup
    cases hbg : b.group with
    | none =>
      rw [hbg] at hgr
      cases hdg : d.group with
      | some es => rw [hdg] at hgr; cases hgr
      | none =>
        refine ⟨⟨h.face.data, h.face.cursor, h.face.callback, h.face.log⟩, h.undo, h.redo, ?_, h.mark, ?_⟩
        · simp only [Doc.step, hdg]; exact .some .nil
        · apply (inv_group _).mp
          refine ⟨base, p1, p2, by simp [Doc.step], ?_⟩
          intro es he
          simp only [Doc.step, hdg, Option.getD_none, Option.some.injEq] at he
          subst he; exact p3 hdg
    | some ops =>
      rw [hbg] at hgr
      cases hdg : d.group with
      | none => rw [hdg] at hgr; cases hgr
      | some es =>
        have : d.step S.segs .startGroup = d := by
          simp only [Doc.step, hdg, Option.getD_some]; cases d; simp at hdg; simp [hdg]
        rw [this]; exact h
  | endGroup => exact ⟨_, rfl, endGroup_sim h⟩
  | move m =>
    refine ⟨{ b with cursor := moveCursor S.segs d.text b.cursor m }, ?_, ?_⟩
    · simp only [exec, Cursor.move_holds h.face.data, Except.ok_bind']; rfl
    · exact ⟨⟨h.face.data, by simp [Doc.step, h.face.cursor], h.face.callback, h.face.log⟩, h.undo, h.redo, h.group, h.mark, h.inv⟩
  | setCursor p =>
    exact ⟨_, rfl, ⟨h.face.data, by simp [Doc.step, h.face.cursor], h.face.callback, h.face.log⟩, h.undo, h.redo, h.group, h.mark, h.inv⟩
  | setCallback s => exact ⟨_, rfl, ⟨h.face.data, h.face.cursor, rfl, h.face.log⟩, h.undo, h.redo, h.group, h.mark, h.inv⟩
  | saved =>
    refine ⟨_, rfl, ⟨h.face.data, h.face.cursor, h.face.callback, h.face.log⟩, h.undo, h.redo, h.group, ?_, h.inv⟩
    simp [Doc.step, Buf.setMark, History.setMark, h.undo.length_eq]
  | reload c =>
    obtain ⟨b', h1, h2⟩ := replace_sim (A := A) h c
    refine ⟨b'.setMark, by simp only [exec, reloadWith, h1, Except.ok_bind']; rfl,
      ⟨h2.face.data, h2.face.cursor, h2.face.callback, h2.face.log⟩, h2.undo, h2.redo, h2.group, ?_, h2.inv⟩
    simp [Doc.step, Buf.setMark, History.setMark, h2.undo.length_eq]

theorem execAll_sim {b : Buf} {d : Doc} (h : Sim S b d) (cs : List Cmd) (hc : CleanCmds S.segs d cs) :
    ∃ b', execAll S A b cs = .ok b' ∧ Sim S b' (d.steps S.segs cs) := by
  induction cs generalizing b d with
  | nil => exact ⟨b, rfl, h⟩
  | cons c cs ih =>
    obtain ⟨b1, h1, h2⟩ := exec_sim (A := A) h c hc.1
    obtain ⟨b2, h3, h4⟩ := ih h2 hc.2
    exact ⟨b2, by simp only [execAll, h1, Except.ok_bind', h3], h4⟩

theorem sim_new (k : Nat) : Sim S (Buf.new A k) (Doc.new [] false) :=
  ⟨⟨GapBuffer.holds_new _ _, rfl, rfl, rfl⟩, .nil, .nil, .none, rfl, [], trivial, trivial, rfl⟩

theorem sim_fromContent (k : Nat) (t : Text) : Sim S (Buf.fromContent A k t) (Doc.new t true) :=
  ⟨⟨GapBuffer.holds_new _ _, rfl, rfl, rfl⟩, .nil, .nil, .none, rfl, t, trivial, trivial, rfl⟩

end Scribe
