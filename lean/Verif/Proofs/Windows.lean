import Verif.Spec.Windows
import Verif.Proofs.Closed
import Verif.Proofs.Typing
/-! Histories on files with CRLF line ends are clean when what is inserted has no CRLF. -/
namespace Scribe.Uax29
variable (T : Table)

theorem closed_cr (st : St) (hs : st.closed = true) : cont st .cr = none := by
  cases st <;> simp [St.closed, cont] at *

theorem go_closed_cr (st : St) (cur rest tail : Text) (st' : St) (h : runSt T.cls st rest = some st') (hs : st'.closed = true)
    (ht : ∀ c, tail.head? = some c → (T.cls c).first = true ∨ T.cls c = .cr) :
    go T.cls st cur (rest ++ tail) = (cur ++ rest) :: segs T.cls tail := by
  induction rest generalizing st cur with
  | nil =>
    obtain rfl := Option.some.inj h
    cases tail with
    | nil => simp [go, segs]
    | cons c cs =>
      have : cont st (T.cls c) = none := by
        rcases ht c rfl with h | h
        · exact closed_first hs h
        · rw [h]; exact closed_cr st hs
      simp [go, segs, this]
  | cons c cs ih =>
    simp only [runSt] at h
    cases hc : cont st (T.cls c) with
    | none => rw [hc] at h; cases h
    | some s1 =>
      rw [hc] at h
      simp only [List.cons_append, go, hc]
      rw [ih _ _ h]; simp

theorem head_orCrlf {cs : List Text} (h : ∀ c ∈ cs, Spec.OrCrlf (Ordinary T.cls) c) :
    ∀ c, cs.flatten.head? = some c → (T.cls c).first = true ∨ T.cls c = .cr := by
  cases cs with
  | nil => intro c hc; cases hc
  | cons x cs =>
    have hx := h x (by simp)
    cases x with
    | nil => rcases hx with hx | hx <;> cases hx
    | cons a x =>
      intro c hc
      simp only [List.flatten_cons, List.cons_append, List.head?_cons] at hc
      obtain rfl := Option.some.inj hc
      rcases hx with hx | hx
      · exact Or.inl hx.1
      · injection hx with h1 _
        exact Or.inr ((T.cr _).mpr h1)

theorem orCrlf_apart (cs : List Text) (h : ∀ c ∈ cs, Spec.OrCrlf (Ordinary T.cls) c) : segs T.cls cs.flatten = cs := by
  induction cs with
  | nil => rfl
  | cons x cs ih =>
    have hx := h x (by simp)
    have ht : ∀ c ∈ cs, Spec.OrCrlf (Ordinary T.cls) c := fun c hc => h c (by simp [hc])
    cases x with
    | nil => rcases hx with hx | hx <;> cases hx
    | cons a x =>
      have key : ∃ st, runSt T.cls (start (T.cls a)) x = some st ∧ st.closed = true := by
        rcases hx with hx | hx
        · exact hx.2
        · injection hx with h1 h2
          subst h1 h2
          have e1 := (T.cr '\r').mpr rfl
          have e2 := (T.lf '\n').mpr rfl
          exact ⟨.ctl, by simp [runSt, e1, e2, start, cont], rfl⟩
      obtain ⟨st, h1, h2⟩ := key
      simp only [List.flatten_cons, List.cons_append, segs]
      rw [go_closed_cr T _ _ _ _ _ h1 h2 (head_orCrlf T ht), ih ht]; rfl

theorem ordinary_crlfClosed : Spec.CrlfClosed (segmenter T).segs (Ordinary T.cls) := ⟨orCrlf_apart T, ordinary_noCrlf T⟩

end Scribe.Uax29

namespace Scribe
open Spec Buf
variable {S : Segmenter} {P : Text → Prop}

theorem over_weaken {t : Text} (h : Over S.segs P t) : Over S.segs (OrCrlf P) t := fun c hc => Or.inl (h c hc)

section
variable {Q : Text → Prop} (hQ : ∀ cs : List Text, (∀ c ∈ cs, Q c) → S.segs cs.flatten = cs)
include hQ

theorem apart_cleanInsert {t s} (p : Position) (ht : Over S.segs Q t) (hs : Over S.segs Q s) : CleanInsert S.segs t s p := by
  intro a b hl
  obtain ⟨ha, hb⟩ := over_parts ht (locate_parts hl)
  have := hQ (a ++ S.segs s ++ b) (by
    intro c hc
    simp only [List.mem_append] at hc
    rcases hc with (hc | hc) | hc
    · exact ha c hc
    · exact hs c hc
    · exact hb c hc)
  simpa [S.join] using this

theorem apart_insertAt {t s} (p : Position) (ht : Over S.segs Q t) (hs : Over S.segs Q s) : Over S.segs Q (insertAt S.segs t s p) := by
  unfold insertAt
  cases hl : locate (S.segs t) p with
  | none => exact ht
  | some x =>
    obtain ⟨a, b⟩ := x
    obtain ⟨ha, hb⟩ := over_parts ht (locate_parts hl)
    intro c hc
    rw [apart_cleanInsert hQ p ht hs a b hl] at hc
    simp only [List.mem_append] at hc
    rcases hc with (hc | hc) | hc
    · exact ha c hc
    · exact hs c hc
    · exact hb c hc

theorem apart_cleanDelete {t} (p q : Position) (ht : Over S.segs Q t) : CleanDelete S.segs t p q := by
  intro a b hl
  obtain ⟨ha, _⟩ := over_parts ht (locate_parts hl)
  have := hQ (a ++ afterEnd (S.segs t) q) (by
    intro c hc
    simp only [List.mem_append] at hc
    rcases hc with hc | hc
    · exact ha c hc
    · exact over_afterEnd q ht c hc)
  simpa using this

theorem apart_deleteRange {t} (p q : Position) (ht : Over S.segs Q t) : Over S.segs Q (Spec.deleteRange S.segs t p q) := by
  unfold Spec.deleteRange
  cases hl : locate (S.segs t) p with
  | none => exact ht
  | some x =>
    obtain ⟨a, b⟩ := x
    obtain ⟨ha, _⟩ := over_parts ht (locate_parts hl)
    intro c hc
    rw [apart_cleanDelete hQ p q ht a b hl] at hc
    simp only [List.mem_append] at hc
    rcases hc with hc | hc
    · exact ha c hc
    · exact over_afterEnd q ht c hc

end

/-- A step that edits nothing, or one whose edit is known to be over `Q`. -/
theorem windows_step (hP : CrlfClosed S.segs P) {d : Doc} (h : DocOver S (OrCrlf P) d) (c : Cmd) (hc : WindowsCmd S.segs P d c) :
    DocOver S (OrCrlf P) (d.step S.segs c) := by
  have hrep : ∀ x, Over S.segs (OrCrlf P) x → DocOver S (OrCrlf P) (d.replace S.segs x) := by
    intro x hx
    unfold Doc.replace
    split
    · exact h
    · exact h.edit _ ⟨h.text, hx⟩
  have nogroup : ∀ es, (none : Option (List Edit)) = some es → ∀ e ∈ es, Over S.segs (OrCrlf P) e.before ∧ Over S.segs (OrCrlf P) e.after :=
    fun es hes => by cases hes
  cases c with
  | insert s => exact h.edit _ ⟨h.text, apart_insertAt hP.apart _ h.text (over_weaken hc)⟩
  | delete => exact h.edit _ ⟨h.text, apart_deleteRange hP.apart _ _ h.text⟩
  | deleteRange p q => exact h.edit _ ⟨h.text, apart_deleteRange hP.apart _ _ h.text⟩
  | replace x => exact hrep x hc
  | reload x =>
    have := hrep x hc
    exact ⟨this.text, this.undo, this.redo, this.group⟩
  | undo =>
    show DocOver S (OrCrlf P) (d.undo1 S.segs)
    have hpop : DocOver S (OrCrlf P) (match d.undo with
        | es :: rest => Doc.revertAll S.segs { d with group := none, undo := rest, redo := es :: d.redo } es
        | [] => { d with group := none }) := by
      cases hu : d.undo with
      | nil => exact ⟨h.text, (fun es hes => by cases hes), h.redo, nogroup⟩
      | cons es rest =>
        have hes := h.undo es (by rw [hu]; simp)
        have h1 : DocOver S (OrCrlf P) { d with group := none, undo := rest, redo := es :: d.redo } := by
          refine ⟨h.text, ?_, ?_, nogroup⟩
          · intro x hx; exact h.undo x (by rw [hu]; simp [show x ∈ rest from hx])
          · intro x hx
            rcases List.mem_cons.mp hx with rfl | hx
            · exact hes
            · exact h.redo x hx
        exact h1.revertAll es hes
    unfold Doc.undo1
    cases hg : d.group with
    | none => exact hpop
    | some es =>
      cases es with
      | nil => exact hpop
      | cons e es =>
        have h1 : DocOver S (OrCrlf P) { d with group := none } := ⟨h.text, h.undo, h.redo, nogroup⟩
        exact h1.revertAll _ (h.group _ hg)
  | redo =>
    show DocOver S (OrCrlf P) (d.redo1 S.segs)
    unfold Doc.redo1
    cases hu : d.redo with
    | nil => exact h
    | cons es rest =>
      have hes := h.redo es (by rw [hu]; simp)
      have h1 : DocOver S (OrCrlf P) { d with undo := es :: d.undo, redo := rest } := by
        refine ⟨h.text, ?_, ?_, h.group⟩
        · intro x hx
          rcases List.mem_cons.mp hx with rfl | hx
          · exact hes
          · exact h.undo x hx
        · intro x hx; exact h.redo x (by rw [hu]; simp [show x ∈ rest from hx])
      exact h1.applyAll es hes
  | startGroup =>
    refine ⟨h.text, h.undo, h.redo, ?_⟩
    intro es hes x hx
    obtain rfl := Option.some.inj hes
    cases hg : d.group with
    | none => rw [hg] at hx; cases hx
    | some es => rw [hg] at hx; exact h.group es hg x hx
  | endGroup =>
    show DocOver S (OrCrlf P) d.endGroup
    unfold Doc.endGroup
    have h0 : DocOver S (OrCrlf P) { d with group := none } := ⟨h.text, h.undo, h.redo, nogroup⟩
    cases hg : d.group with
    | none => exact h0
    | some es =>
      cases es with
      | nil => exact h0
      | cons e es =>
        refine ⟨h.text, ?_, (fun x hx => by cases hx), nogroup⟩
        intro x hx
        rcases List.mem_cons.mp hx with rfl | hx
        · exact h.group _ hg
        · exact h.undo x hx
  | move m => exact ⟨h.text, h.undo, h.redo, h.group⟩
  | setCursor p => exact ⟨h.text, h.undo, h.redo, h.group⟩
  | setCallback s => exact ⟨h.text, h.undo, h.redo, h.group⟩
  | saved => exact ⟨h.text, h.undo, h.redo, h.group⟩

theorem windows_clean (hP : CrlfClosed S.segs P) {d : Doc} (h : DocOver S (OrCrlf P) d) (c : Cmd) (hc : WindowsCmd S.segs P d c) :
    CleanCmd S.segs d c := by
  cases c with
  | insert s => exact ⟨apart_cleanInsert hP.apart _ h.text (over_weaken hc), fun hm => hP.noCrlf (hc _ hm)⟩
  | delete => exact apart_cleanDelete hP.apart _ _ h.text
  | deleteRange p q =>
    refine ⟨apart_cleanDelete hP.apart _ _ h.text, ?_⟩
    rcases hc with hc | hc
    · exact Or.inl hc
    · right
      unfold exists? at hc
      unfold Spec.deleteRange
      cases hl : locate (S.segs d.text) (lo p q) with
      | none => rfl
      | some x => rw [hl] at hc; cases hc
  | redo => exact hc
  | _ => trivial

theorem windows_steps (hP : CrlfClosed S.segs P) {d : Doc} (h : DocOver S (OrCrlf P) d) (cs : List Cmd) (hc : WindowsCmds S.segs P d cs) :
    CleanCmds S.segs d cs ∧ DocOver S (OrCrlf P) (d.steps S.segs cs) := by
  induction cs generalizing d with
  | nil => exact ⟨trivial, h⟩
  | cons c cs ih =>
    obtain ⟨h1, h2⟩ := ih (windows_step hP h c hc.1) hc.2
    exact ⟨⟨windows_clean hP h c hc.1, h1⟩, h2⟩

/-- In a text of clusters without CR, and CRLFs, every CR is followed by LF. -/
theorem orCrlf_paired (hcr : ∀ c, P c → '\r' ∉ c) (cs : List Text) (h : ∀ c ∈ cs, OrCrlf P c) : CrPaired cs.flatten := by
  induction cs with
  | nil => intro x y e; simp at e
  | cons c cs ih =>
    have ih := ih fun d hd => h d (by simp [hd])
    intro x y e
    rw [List.flatten_cons] at e
    rcases List.append_eq_append_iff.mp e with ⟨z, h1, h2⟩ | ⟨z, h1, h2⟩
    · exact ih z y h2
    · cases z with
      | nil => exact ih [] y (by simpa using h2.symm)
      | cons b z =>
        simp only [List.cons_append, List.cons.injEq] at h2
        obtain ⟨rfl, h2⟩ := h2
        rcases h c (by simp) with hc | hc
        · exact absurd (by rw [h1]; simp) (hcr c hc)
        · rw [hc] at h1
          match x, h1 with
          | [], h1 =>
            simp only [List.nil_append, List.cons.injEq, true_and] at h1
            rw [h2, ← h1]; rfl
          | [_], h1 => simp at h1
          | _ :: _ :: _, h1 => simp at h1

theorem over_paired (hcr : ∀ c, P c → '\r' ∉ c) {t : Text} (h : Over S.segs (OrCrlf P) t) : CrPaired t := by
  have := orCrlf_paired hcr (S.segs t) h
  rwa [S.join] at this

end Scribe
