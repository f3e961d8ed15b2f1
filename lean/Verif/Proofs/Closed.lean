import Verif.Spec.Ordinary
import Verif.Proofs.Uax29
import Verif.Proofs.Aligned
/-! Histories over a closed set of clusters are clean; the ordinary clusters of UAX #29 are closed. -/
namespace Scribe.Uax29
variable (T : Table)

theorem closed_first {st : St} {c : Cls} (hs : st.closed = true) (hc : c.first = true) : cont st c = none := by
  cases st <;> cases c <;> simp [St.closed, Cls.first, cont] at *

theorem go_closed (st : St) (cur rest tail : Text) (st' : St) (h : runSt T.cls st rest = some st') (hs : st'.closed = true)
    (ht : ∀ c, tail.head? = some c → (T.cls c).first = true) :
    go T.cls st cur (rest ++ tail) = (cur ++ rest) :: segs T.cls tail := by
  induction rest generalizing st cur with
  | nil =>
    obtain rfl := Option.some.inj h
    cases tail with
    | nil => simp [go, segs]
    | cons c cs =>
      have := closed_first hs (ht c rfl)
      simp [go, segs, this]
  | cons c cs ih =>
    simp only [runSt] at h
    cases hc : cont st (T.cls c) with
    | none => rw [hc] at h; cases h
    | some s1 =>
      rw [hc] at h
      simp only [List.cons_append, go, hc]
      rw [ih _ _ h]; simp

theorem head_ordinary {cs : List Text} (h : ∀ c ∈ cs, Ordinary T.cls c) :
    ∀ c, cs.flatten.head? = some c → (T.cls c).first = true := by
  cases cs with
  | nil => intro c hc; cases hc
  | cons x cs =>
    have hx := h x (by simp)
    cases x with
    | nil => cases hx
    | cons a x =>
      intro c hc
      simp only [List.flatten_cons, List.cons_append, List.head?_cons] at hc
      obtain rfl := Option.some.inj hc
      exact hx.1

theorem ordinary_apart (cs : List Text) (h : ∀ c ∈ cs, Ordinary T.cls c) : segs T.cls cs.flatten = cs := by
  induction cs with
  | nil => rfl
  | cons x cs ih =>
    have hx := h x (by simp)
    have ht : ∀ c ∈ cs, Ordinary T.cls c := fun c hc => h c (by simp [hc])
    cases x with
    | nil => cases hx
    | cons a x =>
      obtain ⟨_, st, h1, h2⟩ := hx
      simp only [List.flatten_cons, List.cons_append, segs]
      rw [go_closed T _ _ _ _ _ h1 h2 (head_ordinary T ht), ih ht]; rfl

theorem ordinary_noCrlf : ¬ Ordinary T.cls ['\r', '\n'] := by
  rintro ⟨h, _⟩
  rw [(T.cr _).mpr rfl] at h
  cases h

theorem ordinary_closed : Spec.Closed (segmenter T).segs (Ordinary T.cls) := ⟨ordinary_apart T, ordinary_noCrlf T⟩

end Scribe.Uax29

namespace Scribe
open Spec Buf
variable {S : Segmenter} {P : Text → Prop}

theorem over_parts {t a b} (h : Over S.segs P t) (hab : S.segs t = a ++ b) : (∀ c ∈ a, P c) ∧ ∀ c ∈ b, P c := by
  unfold Over at h; rw [hab] at h
  exact ⟨fun c hc => h c (by simp [hc]), fun c hc => h c (by simp [hc])⟩

theorem over_flatten (hP : Closed S.segs P) {cs : List Text} (h : ∀ c ∈ cs, P c) : Over S.segs P cs.flatten := by
  unfold Over; rw [hP.apart cs h]; exact h

theorem locate_parts {t p a b} (h : locate (S.segs t) p = some (a, b)) : S.segs t = a ++ b := (locate_eq_some.mp h).1

theorem over_cleanInsert (hP : Closed S.segs P) {t s} (p : Position) (ht : Over S.segs P t) (hs : Over S.segs P s) :
    CleanInsert S.segs t s p := by
  intro a b hl
  obtain ⟨ha, hb⟩ := over_parts ht (locate_parts hl)
  have := hP.apart (a ++ S.segs s ++ b) (by
    intro c hc
    simp only [List.mem_append] at hc
    rcases hc with (hc | hc) | hc
    · exact ha c hc
    · exact hs c hc
    · exact hb c hc)
  simpa [S.join] using this

theorem over_insertAt (hP : Closed S.segs P) {t s} (p : Position) (ht : Over S.segs P t) (hs : Over S.segs P s) :
    Over S.segs P (insertAt S.segs t s p) := by
  unfold insertAt
  cases hl : locate (S.segs t) p with
  | none => exact ht
  | some x =>
    obtain ⟨a, b⟩ := x
    obtain ⟨ha, hb⟩ := over_parts ht (locate_parts hl)
    intro c hc
    rw [over_cleanInsert hP p ht hs a b hl] at hc
    simp only [List.mem_append] at hc
    rcases hc with (hc | hc) | hc
    · exact ha c hc
    · exact hs c hc
    · exact hb c hc

theorem over_afterEnd {t} (q : Position) (ht : Over S.segs P t) : ∀ c ∈ afterEnd (S.segs t) q, P c := by
  obtain ⟨x, hx⟩ := GapBuffer.afterEnd_suffix (cs := S.segs t) (q := q)
  exact (over_parts ht hx).2

theorem over_cleanDelete (hP : Closed S.segs P) {t} (p q : Position) (ht : Over S.segs P t) : CleanDelete S.segs t p q := by
  intro a b hl
  obtain ⟨ha, _⟩ := over_parts ht (locate_parts hl)
  have := hP.apart (a ++ afterEnd (S.segs t) q) (by
    intro c hc
    simp only [List.mem_append] at hc
    rcases hc with hc | hc
    · exact ha c hc
    · exact over_afterEnd q ht c hc)
  simpa using this

theorem over_deleteRange (hP : Closed S.segs P) {t} (p q : Position) (ht : Over S.segs P t) :
    Over S.segs P (Spec.deleteRange S.segs t p q) := by
  unfold Spec.deleteRange
  cases hl : locate (S.segs t) p with
  | none => exact ht
  | some x =>
    obtain ⟨a, b⟩ := x
    obtain ⟨ha, _⟩ := over_parts ht (locate_parts hl)
    intro c hc
    rw [over_cleanDelete hP p q ht a b hl] at hc
    simp only [List.mem_append] at hc
    rcases hc with hc | hc
    · exact ha c hc
    · exact over_afterEnd q ht c hc

/-- Everything a document remembers is over `P`. -/
structure DocOver (S : Segmenter) (P : Text → Prop) (d : Doc) : Prop where
  text : Over S.segs P d.text
  undo : ∀ es ∈ d.undo, ∀ e ∈ es, Over S.segs P e.before ∧ Over S.segs P e.after
  redo : ∀ es ∈ d.redo, ∀ e ∈ es, Over S.segs P e.before ∧ Over S.segs P e.after
  group : ∀ es, d.group = some es → ∀ e ∈ es, Over S.segs P e.before ∧ Over S.segs P e.after

theorem report_all_same (d : Doc) (p : Option Position) :
    (d.report p).text = d.text ∧ (d.report p).undo = d.undo ∧ (d.report p).redo = d.redo ∧ (d.report p).group = d.group := by
  unfold Doc.report
  cases p with
  | none => exact ⟨rfl, rfl, rfl, rfl⟩
  | some p => simp only; split <;> exact ⟨rfl, rfl, rfl, rfl⟩

theorem DocOver.setText {d : Doc} (h : DocOver S P d) {t : Text} (ht : Over S.segs P t) (w : Bool) (p : Option Position) :
    DocOver S P ((d.setText S.segs t w).report p) := by
  obtain ⟨h1, h2, h3, h4⟩ := report_all_same (d.setText S.segs t w) p
  constructor
  · rw [h1]; exact ht
  · rw [h2]; exact h.undo
  · rw [h3]; exact h.redo
  · rw [h4]; exact h.group

theorem DocOver.applyAll {d : Doc} (h : DocOver S P d) (es : List Edit) (he : ∀ e ∈ es, Over S.segs P e.before ∧ Over S.segs P e.after) :
    DocOver S P (d.applyAll S.segs es) := by
  unfold Doc.applyAll
  induction es generalizing d with
  | nil => exact h
  | cons e es ih => exact ih (h.setText (he e (by simp)).2 _ _) fun x hx => he x (by simp [hx])

theorem DocOver.revertAll {d : Doc} (h : DocOver S P d) (es : List Edit) (he : ∀ e ∈ es, Over S.segs P e.before ∧ Over S.segs P e.after) :
    DocOver S P (d.revertAll S.segs es) := by
  unfold Doc.revertAll
  have he' : ∀ e ∈ es.reverse, Over S.segs P e.before ∧ Over S.segs P e.after := fun e h' => he e (List.mem_reverse.mp h')
  generalize es.reverse = rs at he'
  induction rs generalizing d with
  | nil => exact h
  | cons e es ih => exact ih (h.setText (he' e (by simp)).1 _ _) fun x hx => he' x (by simp [hx])

theorem DocOver.edit {d : Doc} (h : DocOver S P d) (e : Edit) (he : Over S.segs P e.before ∧ Over S.segs P e.after) :
    DocOver S P (d.edit S.segs e) := by
  have h1 : DocOver S P (d.apply S.segs e) := h.setText he.2 _ _
  unfold Doc.edit
  generalize d.apply S.segs e = d1 at h1
  simp only
  cases hg : d1.group with
  | none =>
    refine ⟨h1.text, ?_, ?_, ?_⟩
    · intro es hes x hx
      rcases List.mem_cons.mp hes with rfl | hes
      · rw [List.mem_singleton.mp hx]; exact he
      · exact h1.undo es hes x hx
    · intro es hes; cases hes
    · intro es hes; rw [show (d1.push [e]).group = d1.group from rfl, hg] at hes; cases hes
  | some es0 =>
    refine ⟨h1.text, h1.undo, h1.redo, ?_⟩
    intro es hes x hx
    obtain rfl := Option.some.inj hes
    rcases List.mem_append.mp hx with hx | hx
    · exact h1.group _ hg x hx
    · rw [List.mem_singleton.mp hx]; exact he

theorem DocOver.step (hP : Closed S.segs P) {d : Doc} (h : DocOver S P d) (c : Cmd) (hc : OrdinaryCmd S.segs P d c) :
    DocOver S P (d.step S.segs c) := by
  have hrep : ∀ x, Over S.segs P x → DocOver S P (d.replace S.segs x) := by
    intro x hx
    unfold Doc.replace
    split
    · exact h
    · exact h.edit _ ⟨h.text, hx⟩
  have nogroup : ∀ es, (none : Option (List Edit)) = some es → ∀ e ∈ es, Over S.segs P e.before ∧ Over S.segs P e.after :=
    fun es hes => by cases hes
  cases c with
  | insert s => exact h.edit _ ⟨h.text, over_insertAt hP _ h.text hc⟩
  | delete => exact h.edit _ ⟨h.text, over_deleteRange hP _ _ h.text⟩
  | deleteRange p q => exact h.edit _ ⟨h.text, over_deleteRange hP _ _ h.text⟩
  | replace x => exact hrep x hc
  | reload x =>
    have := hrep x hc
    exact ⟨this.text, this.undo, this.redo, this.group⟩
  | undo =>
    show DocOver S P (d.undo1 S.segs)
    have hpop : DocOver S P (match d.undo with
        | es :: rest => Doc.revertAll S.segs { d with group := none, undo := rest, redo := es :: d.redo } es
        | [] => { d with group := none }) := by
      cases hu : d.undo with
      | nil => exact ⟨h.text, (fun es hes => by cases hes), h.redo, nogroup⟩
      | cons es rest =>
        have hes := h.undo es (by rw [hu]; simp)
        have h1 : DocOver S P { d with group := none, undo := rest, redo := es :: d.redo } := by
          refine ⟨h.text, ?_, ?_, nogroup⟩
          · intro x hx; exact h.undo x (by rw [hu]; simp [show x ∈ rest from hx])
          · intro x hx
            rcases List.mem_cons.mp hx with rfl | hx
            · exact hes
            · exact h.redo x hx
        exact h1.revertAll es hes
    unfold Doc.undo1
    cases hg : d.group with
    | none => exact hpop
    | some es =>
      cases es with
      | nil => exact hpop
      | cons e es =>
        have h1 : DocOver S P { d with group := none } := ⟨h.text, h.undo, h.redo, nogroup⟩
        exact h1.revertAll _ (h.group _ hg)
  | redo =>
    show DocOver S P (d.redo1 S.segs)
    unfold Doc.redo1
    cases hu : d.redo with
    | nil => exact h
    | cons es rest =>
      have hes := h.redo es (by rw [hu]; simp)
      have h1 : DocOver S P { d with undo := es :: d.undo, redo := rest } := by
        refine ⟨h.text, ?_, ?_, h.group⟩
        · intro x hx
          rcases List.mem_cons.mp hx with rfl | hx
          · exact hes
          · exact h.undo x hx
        · intro x hx; exact h.redo x (by rw [hu]; simp [show x ∈ rest from hx])
      exact h1.applyAll es hes
  | startGroup =>
    refine ⟨h.text, h.undo, h.redo, ?_⟩
    intro es hes x hx
    obtain rfl := Option.some.inj hes
    cases hg : d.group with
    | none => rw [hg] at hx; cases hx
    | some es => rw [hg] at hx; exact h.group es hg x hx
  | endGroup =>
    show DocOver S P d.endGroup
    unfold Doc.endGroup
    have h0 : DocOver S P { d with group := none } := ⟨h.text, h.undo, h.redo, nogroup⟩
    cases hg : d.group with
    | none => exact h0
    | some es =>
      cases es with
      | nil => exact h0
      | cons e es =>
        refine ⟨h.text, ?_, (fun x hx => by cases hx), nogroup⟩
        intro x hx
        rcases List.mem_cons.mp hx with rfl | hx
        · exact h.group _ hg
        · exact h.undo x hx
  | move m => exact ⟨h.text, h.undo, h.redo, h.group⟩
  | setCursor p => exact ⟨h.text, h.undo, h.redo, h.group⟩
  | setCallback s => exact ⟨h.text, h.undo, h.redo, h.group⟩
  | saved => exact ⟨h.text, h.undo, h.redo, h.group⟩

theorem DocOver.clean (hP : Closed S.segs P) {d : Doc} (h : DocOver S P d) (c : Cmd) (hc : OrdinaryCmd S.segs P d c) :
    CleanCmd S.segs d c := by
  cases c with
  | insert s => exact ⟨over_cleanInsert hP _ h.text hc, fun hm => hP.noCrlf (hc _ hm)⟩
  | delete => exact over_cleanDelete hP _ _ h.text
  | deleteRange p q =>
    refine ⟨over_cleanDelete hP _ _ h.text, ?_⟩
    rcases hc with hc | hc
    · exact Or.inl hc
    · right
      unfold exists? at hc
      unfold Spec.deleteRange
      cases hl : locate (S.segs d.text) (lo p q) with
      | none => rfl
      | some x => rw [hl] at hc; cases hc
  | redo => exact hc
  | _ => trivial

theorem DocOver.cleanAll (hP : Closed S.segs P) {d : Doc} (h : DocOver S P d) (cs : List Cmd) (hc : OrdinaryCmds S.segs P d cs) :
    CleanCmds S.segs d cs := by
  induction cs generalizing d with
  | nil => trivial
  | cons c cs ih => exact ⟨h.clean hP c hc.1, ih (h.step hP c hc.1) hc.2⟩

theorem docOver_new {t : Text} (ht : Over S.segs P t) (m : Bool) : DocOver S P (Doc.new t m) :=
  ⟨ht, fun es hes => (by cases hes), fun es hes => (by cases hes), fun es hes => (by cases hes)⟩

end Scribe
