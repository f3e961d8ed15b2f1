import Verif.Proofs.Dialogue
import Verif.Proofs.Closed
/-! # Documents that differ only in where the gap is -/
namespace Scribe
open Spec
variable {σ : Type} {S : Segmenter} {P : Text → Prop} {g g' : Nat → Nat → Nat → Nat} {W : FileTree}

/-- The same text, made of clusters of `P` on both sides of both gaps. -/
structure TwinZ (S : Segmenter) (P : Text → Prop) (z z' : Zip) : Prop where
  text : z.text = z'.text
  left : Over S.segs P z.left
  right : Over S.segs P z.right
  left' : Over S.segs P z'.left
  right' : Over S.segs P z'.right

theorem over_clusters (hP : Closed S.segs P) {z : Zip} (h1 : Over S.segs P z.left) (h2 : Over S.segs P z.right) :
    z.clusters S.segs = S.segs z.text := by
  have h := hP.apart (S.segs z.left ++ S.segs z.right) (by intro c hc; rcases List.mem_append.mp hc with h | h; exact h1 c h; exact h2 c h)
  rw [List.flatten_append, S.join, S.join] at h
  exact h.symm

theorem TwinZ.over (hP : Closed S.segs P) {z z' : Zip} (h : TwinZ S P z z') : ∀ c ∈ S.segs z.text, P c := by
  rw [← over_clusters hP h.left h.right]
  intro c hc
  rcases List.mem_append.mp hc with k | k
  · exact h.left c k
  · exact h.right c k

theorem TwinZ.clusters (hP : Closed S.segs P) {z z' : Zip} (h : TwinZ S P z z') : z'.clusters S.segs = z.clusters S.segs := by
  rw [over_clusters hP h.left h.right, over_clusters hP h.left' h.right', h.text]

theorem TwinZ.has (hP : Closed S.segs P) {z z' : Zip} (h : TwinZ S P z z') (p : Position) : z'.has S.segs p = z.has S.segs p := by
  unfold Zip.has; rw [h.clusters hP]

theorem TwinZ.move (hP : Closed S.segs P) {z z' : Zip} (h : TwinZ S P z z') (c : Cursor) (m : Cursor.Move) :
    z'.moveCursor S.segs c m = z.moveCursor S.segs c m := by
  cases m <;> simp only [Zip.moveCursor, Zip.goto, Zip.gotoLine, Zip.lineStop, h.has hP, h.text]

theorem TwinZ.reserve (hP : Closed S.segs P) {z z' : Zip} (h : TwinZ S P z z') (n : Nat) : TwinZ S P (z.reserve g n) (z'.reserve g' n) := by
  have nil : Over S.segs P [] := by intro c hc; rw [S.segs_nil] at hc; cases hc
  have key : ∀ (g : Nat → Nat → Nat → Nat) (z : Zip), (∀ c ∈ S.segs z.text, P c) → Over S.segs P z.left → Over S.segs P z.right →
      (z.reserve g n).text = z.text ∧ Over S.segs P (z.reserve g n).left ∧ Over S.segs P (z.reserve g n).right := by
    intro g z k0 k1 k2
    unfold Zip.reserve
    split
    · exact ⟨rfl, k1, k2⟩
    · exact ⟨by simp [Zip.text], k0, nil⟩
  obtain ⟨a1, a2, a3⟩ := key g z (h.over hP) h.left h.right
  obtain ⟨b1, b2, b3⟩ := key g' z' (by rw [← h.text]; exact h.over hP) h.left' h.right'
  exact ⟨by rw [a1, b1, h.text], a2, a3, b2, b3⟩

theorem TwinZ.insert (hP : Closed S.segs P) {z z' : Zip} (h : TwinZ S P z z') {t : Text} (ht : Over S.segs P t) (p : Position) :
    TwinZ S P (z.call S.segs g (.insert t p)).2 (z'.call S.segs g' (.insert t p)).2 := by
  have hr := h.reserve hP (g := g) (g' := g') (blen t)
  simp only [Zip.call, hr.clusters hP]
  cases hl : locate ((z.reserve g (blen t)).clusters S.segs) p with
  | none => exact hr
  | some ab =>
    obtain ⟨a, b⟩ := ab
    have hc := (locate_eq_some.mp hl).1
    have all : ∀ c ∈ a ++ b, P c := by
      rw [← hc, over_clusters hP hr.left hr.right]; exact hr.over hP
    have ha : Over S.segs P (a.flatten ++ t) := by
      have := over_flatten hP (cs := a ++ S.segs t) (by
        intro c hc; rcases List.mem_append.mp hc with k | k
        · exact all c (by simp [k])
        · exact ht c k)
      rwa [List.flatten_append, S.join] at this
    have hb : Over S.segs P b.flatten := over_flatten hP fun c hc => all c (by simp [hc])
    exact ⟨rfl, ha, hb, ha, hb⟩

theorem TwinZ.delete (hP : Closed S.segs P) {z z' : Zip} (h : TwinZ S P z z') (p q : Position) :
    TwinZ S P (z.call S.segs g (.delete p q)).2 (z'.call S.segs g' (.delete p q)).2 := by
  simp only [Zip.call, h.clusters hP]
  cases hl : locate (z.clusters S.segs) (lo p q) with
  | none => exact h
  | some ab =>
    obtain ⟨a, b⟩ := ab
    have hc := (locate_eq_some.mp hl).1
    have all : ∀ c ∈ a ++ b, P c := by
      rw [← hc, over_clusters hP h.left h.right]; exact h.over hP
    have ha : Over S.segs P a.flatten := over_flatten hP fun c hc => all c (by simp [hc])
    have hb : Over S.segs P b.flatten := over_flatten hP fun c hc => all c (by simp [hc])
    have e : Zip.clusters S.segs (⟨a.flatten, b.flatten, z.size, z.clock⟩ : Zip) = Zip.clusters S.segs ⟨a.flatten, b.flatten, z'.size, z'.clock⟩ := rfl
    have hab : Over S.segs P (a.flatten ++ b.flatten) := by rw [← List.flatten_append]; exact over_flatten hP all
    have hk : Over S.segs P (afterEnd (Zip.clusters S.segs (⟨a.flatten, b.flatten, z.size, z.clock⟩ : Zip)) (hi p q)).flatten := by
      rw [over_clusters hP ha hb]
      exact over_flatten hP (over_afterEnd (hi p q) hab)
    exact ⟨rfl, ha, hk, ha, hk⟩

/-- The strings of a recipe are made of clusters of `P`. -/
def RecipeOver (S : Segmenter) (P : Text → Prop) : Recipe → Prop
  | .put t _ => Over S.segs P t
  | .cut old _ _ => ∀ t, old = some t → Over S.segs P t
  | .swap old new => Over S.segs P old ∧ Over S.segs P new

/-- The same document, but for the gap. -/
structure Twin (S : Segmenter) (P : Text → Prop) (d d' : ZDoc) : Prop where
  zip : TwinZ S P d.zip d'.zip
  same : d' = { d with zip := d'.zip }
  undo : ∀ rs ∈ d.undo, ∀ r ∈ rs, RecipeOver S P r
  redo : ∀ rs ∈ d.redo, ∀ r ∈ rs, RecipeOver S P r
  group : ∀ rs, d.group = some rs → ∀ r ∈ rs, RecipeOver S P r

theorem Twin.report {d d' : ZDoc} (h : Twin S P d d') (p : Position) : Twin S P (d.report p) (d'.report p) := by
  obtain ⟨h1, h2, h3, h4, h5⟩ := h
  rw [h2]
  unfold ZDoc.report
  simp only
  split
  · exact ⟨h1, rfl, h3, h4, h5⟩
  · exact ⟨h1, rfl, h3, h4, h5⟩

theorem Twin.setZip {d d' : ZDoc} (h : Twin S P d d') {z z' : Zip} (hz : TwinZ S P z z') (c : Cursor) :
    Twin S P { d with zip := z, cursor := c } { d' with zip := z', cursor := c } := by
  obtain ⟨h1, h2, h3, h4, h5⟩ := h
  rw [h2]
  exact ⟨hz, rfl, h3, h4, h5⟩

theorem twin_fresh (hP : Closed S.segs P) {t : Text} (ht : Over S.segs P t) (k k' : Nat) : TwinZ S P (Zip.fresh g k t) (Zip.fresh g' k' t) := by
  have nil : Over S.segs P [] := by intro c hc; rw [S.segs_nil] at hc; cases hc
  exact ⟨rfl, ht, nil, ht, nil⟩

theorem Twin.cursor {d d' : ZDoc} (h : Twin S P d d') : d'.cursor = d.cursor := by rw [h.same]

theorem Twin.swapIn (hP : Closed S.segs P) {d d' : ZDoc} (h : Twin S P d d') {t : Text} (ht : Over S.segs P t) :
    Twin S P (d.swapIn S.segs g t) (d'.swapIn S.segs g' t) := by
  have hz := twin_fresh (g := g) (g' := g') hP ht d.zip.clock d'.zip.clock
  unfold ZDoc.swapIn
  simp only [hz.has hP, h.cursor, Zip.goto]
  exact (h.setZip hz _).report _

theorem Twin.between (hP : Closed S.segs P) {d d' : ZDoc} (h : Twin S P d d') (p q : Position) : d'.between S.segs p q = d.between S.segs p q := by
  unfold ZDoc.between; rw [h.zip.clusters hP]

theorem Twin.alter {d d' : ZDoc} (h : Twin S P d d') (c : GapBuffer.Call) (p : Position)
    (hz : TwinZ S P (d.zip.call S.segs g c).2 (d'.zip.call S.segs g' c).2) : Twin S P (d.alter S.segs g c p) (d'.alter S.segs g' c p) := by
  unfold ZDoc.alter
  have := h.setZip hz d.cursor
  rw [← h.cursor] at this
  have e : ({ d with zip := (d.zip.call S.segs g c).2, cursor := d'.cursor } : ZDoc) = { d with zip := (d.zip.call S.segs g c).2 } := by rw [h.cursor]
  rw [e] at this
  exact this.report p

theorem Twin.perform (hP : Closed S.segs P) {d d' : ZDoc} (h : Twin S P d d') {r : Recipe} (hr : RecipeOver S P r) :
    Twin S P (d.perform S.segs g r) (d'.perform S.segs g' r) := by
  cases r with
  | put t p => exact h.alter _ p (h.zip.insert hP hr p)
  | cut old p q => exact h.alter _ p (h.zip.delete hP p q)
  | swap old new => exact h.swapIn hP hr.2

theorem Twin.revert (hP : Closed S.segs P) {d d' : ZDoc} (h : Twin S P d d') {r : Recipe} (hr : RecipeOver S P r) :
    Twin S P (d.revert S.segs g r) (d'.revert S.segs g' r) := by
  cases r with
  | put t p => exact h.alter _ p (h.zip.delete hP _ _)
  | cut old p q =>
    cases old with
    | none => exact h
    | some t => exact h.alter _ p (h.zip.insert hP (hr t rfl) p)
  | swap old new => exact h.swapIn hP hr.1

theorem Twin.performAll (hP : Closed S.segs P) (rs : List Recipe) {d d' : ZDoc} (h : Twin S P d d') (hr : ∀ r ∈ rs, RecipeOver S P r) :
    Twin S P (d.performAll S.segs g rs) (d'.performAll S.segs g' rs) := by
  induction rs generalizing d d' with
  | nil => exact h
  | cons r rs ih => exact ih (h.perform hP (hr r (by simp))) fun x hx => hr x (by simp [hx])

theorem Twin.revertAll (hP : Closed S.segs P) (rs : List Recipe) {d d' : ZDoc} (h : Twin S P d d') (hr : ∀ r ∈ rs, RecipeOver S P r) :
    Twin S P (d.revertAll S.segs g rs) (d'.revertAll S.segs g' rs) := by
  have key : ∀ (rs : List Recipe) (d d' : ZDoc), Twin S P d d' → (∀ r ∈ rs, RecipeOver S P r) →
      Twin S P (rs.foldl (ZDoc.revert S.segs g) d) (rs.foldl (ZDoc.revert S.segs g') d') := by
    intro rs
    induction rs with
    | nil => intro d d' h _; exact h
    | cons r rs ih => intro d d' h hr; exact ih _ _ (h.revert hP (hr r (by simp))) fun x hx => hr x (by simp [hx])
  exact key rs.reverse d d' h fun r hr' => hr r (by simpa using hr')

theorem Twin.push {d d' : ZDoc} (h : Twin S P d d') {rs : List Recipe} (hr : ∀ r ∈ rs, RecipeOver S P r) : Twin S P (d.push rs) (d'.push rs) := by
  obtain ⟨h1, h2, h3, h4, h5⟩ := h
  rw [h2]
  refine ⟨h1, rfl, ?_, by simp [ZDoc.push], h5⟩
  intro x hx
  rcases List.mem_cons.mp hx with rfl | hx
  · exact hr
  · exact h3 x hx

theorem Twin.edit (hP : Closed S.segs P) {d d' : ZDoc} (h : Twin S P d d') {r : Recipe} (hr : RecipeOver S P r) :
    Twin S P (d.edit S.segs g r) (d'.edit S.segs g' r) := by
  have k := h.perform hP hr (g := g) (g' := g')
  unfold ZDoc.edit
  simp only
  have hg : (d'.perform S.segs g' r).group = (d.perform S.segs g r).group := by rw [k.same]
  rw [hg]
  cases hgr : (d.perform S.segs g r).group with
  | none => exact k.push (by simpa using hr)
  | some rs =>
    obtain ⟨h1, h2, h3, h4, h5⟩ := k
    simp only
    rw [h2]
    refine ⟨h1, rfl, h3, h4, ?_⟩
    intro x hx y hy
    simp only [Option.some.injEq] at hx
    subst hx
    rcases List.mem_append.mp hy with hy | hy
    · exact h5 rs hgr y hy
    · rw [List.mem_singleton.mp hy]; exact hr

theorem Twin.overText (hP : Closed S.segs P) {d d' : ZDoc} (h : Twin S P d d') : Over S.segs P d.zip.text := h.zip.over hP

theorem Twin.replace (hP : Closed S.segs P) {d d' : ZDoc} (h : Twin S P d d') {t : Text} (ht : Over S.segs P t) :
    Twin S P (d.replace S.segs g t) (d'.replace S.segs g' t) := by
  unfold ZDoc.replace
  rw [← h.zip.text]
  split
  · exact h
  · exact h.edit hP ⟨h.overText hP, ht⟩

theorem Twin.cutNow (hP : Closed S.segs P) {d d' : ZDoc} (h : Twin S P d d') (p q : Position) :
    d'.cutNow S.segs p q = d.cutNow S.segs p q ∧ RecipeOver S P (d.cutNow S.segs p q) := by
  refine ⟨by unfold ZDoc.cutNow; rw [h.between hP], ?_⟩
  intro t ht
  unfold ZDoc.between at ht
  split at ht
  · rename_i a b a' b' h1 h2
    cases ht
    refine over_flatten hP fun c hc => ?_
    have := (locate_eq_some.mp h2).1
    rw [over_clusters hP h.zip.left h.zip.right] at this
    exact h.zip.over hP c (by rw [this]; simp [List.mem_of_mem_drop hc])
  · cases ht

theorem Twin.step (hP : Closed S.segs P) {d d' : ZDoc} (h : Twin S P d d') (c : Buf.Cmd)
    (hc : ∀ t, c = .insert t ∨ c = .replace t ∨ c = .reload t → Over S.segs P t) : Twin S P (d.step S.segs g c) (d'.step S.segs g' c) := by
  cases c with
  | insert t =>
    unfold ZDoc.step; rw [h.cursor]
    exact h.edit hP (hc t (Or.inl rfl))
  | delete =>
    unfold ZDoc.step ZDoc.deleteEnd
    simp only [h.cursor, h.zip.has hP]
    obtain ⟨k1, k2⟩ := h.cutNow hP d.cursor.position
      (if d.zip.has S.segs ⟨d.cursor.position.line, d.cursor.position.offset + 1⟩ then ⟨d.cursor.position.line, d.cursor.position.offset + 1⟩ else ⟨d.cursor.position.line + 1, 0⟩)
    rw [k1]
    exact h.edit hP k2
  | deleteRange p q =>
    obtain ⟨k1, k2⟩ := h.cutNow hP p q
    show Twin S P (d.edit S.segs g _) (d'.edit S.segs g' _)
    rw [k1]
    exact h.edit hP k2
  | replace t => exact h.replace hP (hc t (Or.inr (Or.inl rfl)))
  | undo =>
    obtain ⟨z, c, u, r, gr, m, cb, l⟩ := d
    obtain ⟨z', c', u', r', gr', m', cb', l'⟩ := d'
    have e := h.same
    simp only [ZDoc.mk.injEq, true_and] at e
    obtain ⟨rfl, rfl, rfl, rfl, rfl, rfl, rfl⟩ := e
    have base : ∀ (u r : List (List Recipe)), (∀ rs ∈ u, ∀ x ∈ rs, RecipeOver S P x) → (∀ rs ∈ r, ∀ x ∈ rs, RecipeOver S P x) →
        Twin S P ⟨z, c', u, r, none, m', cb', l'⟩ ⟨z', c', u, r, none, m', cb', l'⟩ := fun u r hu hr => ⟨h.zip, rfl, hu, hr, by simp⟩
    have hu := h.undo
    have hother : Twin S P (ZDoc.undo1 S.segs g ⟨z, c', u', r', none, m', cb', l'⟩) (ZDoc.undo1 S.segs g' ⟨z', c', u', r', none, m', cb', l'⟩) := by
      unfold ZDoc.undo1
      cases u' with
      | nil => exact base [] r' (by simp) h.redo
      | cons rs rest =>
        refine (base rest (rs :: r') (fun x hx => hu x (by simp [hx])) ?_).revertAll hP rs (hu rs (by simp))
        intro x hx
        rcases List.mem_cons.mp hx with rfl | hx
        · exact hu x (by simp)
        · exact h.redo x hx
    cases gr' with
    | none => exact hother
    | some rs =>
      cases rs with
      | nil => exact hother
      | cons r rs => exact (base u' r' hu h.redo).revertAll hP (r :: rs) (h.group _ rfl)
  | redo =>
    obtain ⟨z, c, u, r, gr, m, cb, l⟩ := d
    obtain ⟨z', c', u', r', gr', m', cb', l'⟩ := d'
    have e := h.same
    simp only [ZDoc.mk.injEq, true_and] at e
    obtain ⟨rfl, rfl, rfl, rfl, rfl, rfl, rfl⟩ := e
    have hr' := h.redo
    cases r' with
    | nil => exact h
    | cons rs rest =>
      refine Twin.performAll hP rs ?_ (hr' rs (by simp))
      refine ⟨h.zip, rfl, ?_, fun x hx => hr' x (by simp [hx]), h.group⟩
      intro x hx
      rcases List.mem_cons.mp hx with rfl | hx
      · exact hr' x (by simp)
      · exact h.undo x hx
  | startGroup =>
    have e := h.same
    unfold ZDoc.step
    rw [e]
    refine ⟨h.zip, rfl, h.undo, h.redo, ?_⟩
    intro rs hrs x hx
    cases hg : d.group with
    | none => rw [hg] at hrs; cases hrs; cases hx
    | some ys => rw [hg] at hrs; cases hrs; exact h.group _ hg x hx
  | endGroup =>
    have e := h.same
    unfold ZDoc.step ZDoc.endGroup
    have hg : d'.group = d.group := by rw [e]
    rw [hg]
    have base : Twin S P { d with group := none } { d' with group := none } := by
      rw [e]; exact ⟨h.zip, rfl, h.undo, h.redo, by simp⟩
    cases hgr : d.group with
    | none => exact base
    | some rs =>
      cases rs with
      | nil => exact base
      | cons r rs => exact base.push (h.group _ hgr)
  | move m =>
    show Twin S P { d with cursor := _ } { d' with cursor := d'.zip.moveCursor S.segs d'.cursor m }
    rw [h.cursor, h.zip.move hP, h.same]
    exact ⟨h.zip, rfl, h.undo, h.redo, h.group⟩
  | setCursor p =>
    unfold ZDoc.step
    rw [h.same]
    exact ⟨h.zip, rfl, h.undo, h.redo, h.group⟩
  | setCallback b =>
    unfold ZDoc.step
    rw [h.same]
    exact ⟨h.zip, rfl, h.undo, h.redo, h.group⟩
  | saved =>
    unfold ZDoc.step
    rw [h.same]
    exact ⟨h.zip, rfl, h.undo, h.redo, h.group⟩
  | reload t =>
    have k := h.replace hP (hc t (Or.inr (Or.inr rfl))) (g := g) (g' := g')
    unfold ZDoc.step
    simp only
    rw [k.same]
    exact ⟨k.zip, rfl, k.undo, k.redo, k.group⟩

/-! ## Desktops -/

/-- Twin documents with the same path, id and syntax. -/
structure TwinS (S : Segmenter) (P : Text → Prop) (x x' : Sheet σ) : Prop where
  doc : Twin S P x.doc x'.doc
  id : x'.id = x.id
  path : x'.path = x.path
  syn : x'.syn = x.syn

/-- The same desktop, but for the gaps. -/
structure TwinD (S : Segmenter) (P : Text → Prop) (d d' : Desktop σ) : Prop where
  items : List.Forall₂ (TwinS S P) d.docs.tabs.items d'.docs.tabs.items
  sel : d'.docs.tabs.sel = d.docs.tabs.sel
  nextId : d'.docs.nextId = d.docs.nextId
  disk : d'.disk = d.disk

theorem TwinD.selected {d d' : Desktop σ} (h : TwinD S P d d') :
    (d.docs.tabs.selected = none ∧ d'.docs.tabs.selected = none) ∨
      ∃ x x', d.docs.tabs.selected = some x ∧ d'.docs.tabs.selected = some x' ∧ TwinS S P x x' := by
  unfold Tabs.selected
  rw [h.sel]
  exact forall₂_get h.items d.docs.tabs.sel

theorem TwinD.files {d d' : Desktop σ} (h : TwinD S P d d') (readable : Bool) : d'.files W readable = d.files W readable := by
  unfold Desktop.files; rw [h.disk]

theorem TwinD.find {d d' : Desktop σ} (h : TwinD S P d d') (p : Path) : d'.docs.find p = d.docs.find p := by
  unfold Studio.find
  have h1 : d'.docs.tabs.selected.bind (·.path) = d.docs.tabs.selected.bind (·.path) := by
    rcases h.selected with ⟨k1, k2⟩ | ⟨x, x', k1, k2, k3⟩
    · rw [k1, k2]
    · rw [k1, k2]; exact k3.path
  have h2 : d'.docs.tabs.items.findIdx? (fun x => decide (x.path = some p)) = d.docs.tabs.items.findIdx? (fun x => decide (x.path = some p)) := by
    have := h.items
    generalize d.docs.tabs.items = l at this
    generalize d'.docs.tabs.items = l' at this
    induction this with
    | nil => rfl
    | cons k _ ih => simp only [List.findIdx?_cons, k.path, ih]
  rw [h1, h2, h.sel]

theorem TwinD.add {d d' : Desktop σ} (h : TwinD S P d d') (s : Syntaxes σ) {z z' : ZDoc} (hz : Twin S P z z') (path : Option Path) (syn : Option σ) :
    TwinD S P { d with docs := d.docs.add s z path syn } { d' with docs := d'.docs.add s z' path syn } := by
  have hx : TwinS S P (⟨z, some d.docs.nextId, path, some (syn.getD (syntaxFor s path))⟩ : Sheet σ) ⟨z', some d'.docs.nextId, path, some (syn.getD (syntaxFor s path))⟩ :=
    ⟨hz, by rw [h.nextId], rfl, rfl⟩
  unfold Studio.add Tabs.add
  cases d with
  | mk docs disk => cases docs with | mk tabs nextId => cases tabs with | mk items sel =>
    cases d' with
    | mk docs' disk' => cases docs' with | mk tabs' nextId' => cases tabs' with | mk items' sel' =>
      obtain ⟨k1, k2, k3, k4⟩ := h
      simp only at k1 k2 k3 k4 hx ⊢
      subst k2 k3 k4
      cases k1 with
      | nil => exact ⟨.cons hx .nil, rfl, rfl, rfl⟩
      | cons a b =>
        have k1 : List.Forall₂ (TwinS S P) (_ :: _) (_ :: _) := .cons a b
        exact ⟨List.rel_append (List.forall₂_take _ k1) (.cons hx (List.forall₂_drop _ k1)), rfl, rfl, rfl⟩

theorem TwinD.edit {d d' : Desktop σ} (h : TwinD S P d d') (f f' : Sheet σ → Sheet σ) (hf : ∀ x x', TwinS S P x x' → TwinS S P (f x) (f' x')) :
    TwinD S P { d with docs := ⟨d.docs.tabs.edit f, d.docs.nextId⟩ } { d' with docs := ⟨d'.docs.tabs.edit f', d'.docs.nextId⟩ } := by
  refine ⟨?_, h.sel, h.nextId, h.disk⟩
  simp only [Tabs.edit, h.sel]
  exact forall₂_modify hf _ h.items

theorem TwinD.length {d d' : Desktop σ} (h : TwinD S P d d') : d'.docs.tabs.items.length = d.docs.tabs.items.length := h.items.length_eq.symm

theorem TwinD.isEmpty {d d' : Desktop σ} (h : TwinD S P d d') : d'.docs.tabs.items.isEmpty = d.docs.tabs.items.isEmpty := by
  have := h.length
  rw [Bool.eq_iff_iff, List.isEmpty_iff, List.isEmpty_iff, ← List.length_eq_zero_iff, ← List.length_eq_zero_iff, this]

theorem TwinD.cmd (hP : Closed S.segs P) {d d' : Desktop σ} (h : TwinD S P d d') (s : Syntaxes σ) (c : Buf.Cmd)
    (hc : ∀ t, c = .insert t ∨ c = .replace t ∨ c = .reload t → Over S.segs P t) :
    TwinD S P (d.act S.segs g s (.cmd c)) (d'.act S.segs g' s (.cmd c)) :=
  h.edit _ _ fun _ _ k => ⟨k.doc.step hP c hc, k.id, k.path, k.syn⟩

theorem twin_new (hP : Closed S.segs P) {t : Text} (ht : Over S.segs P t) (k : Nat) (m : Bool) : Twin S P (ZDoc.new g k t m) (ZDoc.new g' k t m) :=
  ⟨twin_fresh hP ht k k, rfl, by simp [ZDoc.new], by simp [ZDoc.new], by simp [ZDoc.new]⟩

theorem TwinD.openPath (hP : Closed S.segs P) {d d' : Desktop σ} (h : TwinD S P d d') (s : Syntaxes σ) (clock : Nat) (readable : Bool) (p : Path)
    (hc : ∀ t, (d.files W readable).readToString p = some t → Over S.segs P t) :
    TwinD S P (d.step S.segs g s W (.openPath clock readable p)) (d'.step S.segs g' s W (.openPath clock readable p)) ∧
    d'.result S.segs g' s W (.openPath clock readable p) = d.result S.segs g s W (.openPath clock readable p) := by
  simp only [Desktop.step, Desktop.result, Desktop.act, h.files, Studio.act]
  have hf : ((d.files W readable).canon p).bind d'.docs.find = ((d.files W readable).canon p).bind d.docs.find := by
    cases (d.files W readable).canon p with
    | none => rfl
    | some c => exact h.find c
  rw [hf]
  cases ((d.files W readable).canon p).bind d.docs.find with
  | some i => exact ⟨⟨h.items, rfl, h.nextId, h.disk⟩, rfl⟩
  | none =>
    dsimp only
    cases hr : (d.files W readable).readToString p with
    | none => exact ⟨h, rfl⟩
    | some t =>
      cases (d.files W readable).canon p with
      | none => exact ⟨h, rfl⟩
      | some c => exact ⟨h.add s (twin_new hP (hc t hr) clock true) (some c) none, rfl⟩

theorem TwinS.target {x x' : Sheet σ} (h : TwinS S P x x') : Desktop.target W x' = Desktop.target W x := by
  unfold Desktop.target; rw [h.path]

theorem TwinS.text {x x' : Sheet σ} (h : TwinS S P x x') : x'.doc.zip.text = x.doc.zip.text := h.doc.zip.text.symm

theorem TwinD.save (hP : Closed S.segs P) {d d' : Desktop σ} (h : TwinD S P d d') (s : Syntaxes σ) (env : SaveEnv) :
    TwinD S P (d.save S.segs g s W env) (d'.save S.segs g' s W env) := by
  unfold Desktop.save
  rcases h.selected with ⟨k1, k2⟩ | ⟨x, x', k1, k2, k3⟩
  · rw [k1, k2]; exact h
  · rw [k1, k2]
    cases hc : env.create with
    | none => exact h
    | some c =>
      cases c with
      | none => exact h
      | some f =>
        simp only [k3.target, k3.text]
        cases Desktop.target W x with
        | none => exact h
        | some n =>
          have hs := h.cmd hP (g := g) (g' := g') s .saved (by simp)
          dsimp only
          split
          · exact ⟨hs.items, hs.sel, hs.nextId, by rw [hs.disk]⟩
          · exact ⟨h.items, h.sel, h.nextId, by rw [h.disk]⟩

theorem TwinD.setPath {d d' : Desktop σ} (h : TwinD S P d d') (s : Syntaxes σ) (p : Option Path) :
    TwinD S P (d.act S.segs g s (.setPath p)) (d'.act S.segs g' s (.setPath p)) :=
  h.edit _ _ fun _ _ k => ⟨k.doc, k.id, rfl, k.syn⟩

theorem TwinD.step (hP : Closed S.segs P) {d d' : Desktop σ} (h : TwinD S P d d') (s : Syntaxes σ) (a : Deed σ)
    (hc : Desktop.OrdinaryLine S.segs W P d (.deed a)) : TwinD S P (d.step S.segs g s W a) (d'.step S.segs g' s W a) := by
  cases a with
  | fresh clock => exact h.add s (twin_new hP (by intro c hc; simp at hc) clock false) none none
  | openPath clock readable p => exact (h.openPath hP s clock readable p hc).1
  | close =>
    refine ⟨?_, by show _ - 1 = _ - 1; rw [h.sel], h.nextId, h.disk⟩
    show List.Forall₂ _ (_ ++ _) (_ ++ _)
    rw [h.sel]
    exact List.rel_append (List.forall₂_take _ h.items) (List.forall₂_drop _ h.items)
  | next => exact ⟨h.items, by show (_ + 1) % _ = (_ + 1) % _; rw [h.sel, h.length], h.nextId, h.disk⟩
  | previous => exact ⟨h.items, by show (_ + _ - 1) % _ = (_ + _ - 1) % _; rw [h.sel, h.length], h.nextId, h.disk⟩
  | updateSyntax => exact h.edit _ _ fun x x' k => ⟨k.doc, k.id, k.path, by simp only [k.path]⟩
  | setSyntax y => exact h.edit _ _ fun x x' k => ⟨k.doc, k.id, k.path, rfl⟩
  | cmd c =>
    refine h.cmd hP s c fun t ht => ?_
    rcases ht with rfl | rfl | rfl <;> exact hc
  | save env => exact h.save hP s env
  | saveAs p env => exact (h.setPath s (some p)).save hP s env
  | reload readable =>
    simp only [Desktop.step, h.files]
    rcases h.selected with ⟨k1, k2⟩ | ⟨x, x', k1, k2, k3⟩
    · simp only [k1, k2, Option.bind_none]; exact h
    · simp only [k1, k2, Option.bind_some, k3.path]
      cases hp : x.path with
      | none => exact h
      | some p =>
        rw [Option.bind_some]
        cases hr : (d.files W readable).readToString p with
        | none => exact h
        | some t =>
          refine h.cmd hP s (.reload t) fun u hu => ?_
          rcases hu with hu | hu | hu
          · cases hu
          · cases hu
          · cases hu; exact hc x p t k1 hp hr

theorem TwinD.askDoc {d d' : Desktop σ} (h : TwinD S P d d') (f f' : Sheet σ → Reply σ) (hf : ∀ x x', TwinS S P x x' → f' x' = f x) :
    d'.askDoc f' = d.askDoc f := by
  unfold Desktop.askDoc
  rcases h.selected with ⟨k1, k2⟩ | ⟨x, x', k1, k2, k3⟩
  · rw [k1, k2]
  · rw [k1, k2]; exact hf x x' k3

theorem Twin.marks {d d' : ZDoc} (h : Twin S P d d') : d'.mark = d.mark ∧ d'.undo = d.undo := by rw [h.same]; exact ⟨rfl, rfl⟩

theorem TwinD.reply (hP : Closed S.segs P) {d d' : Desktop σ} (h : TwinD S P d d') (root : Path) (q : Ask) :
    d'.reply S.segs root q = d.reply S.segs root q := by
  cases q with
  | data => exact h.askDoc _ _ fun x x' k => by rw [k.text]
  | read p q => exact h.askDoc _ _ fun x x' k => by rw [k.doc.between hP]
  | search n => exact h.askDoc _ _ fun x x' k => by rw [k.text]
  | lineCount => exact h.askDoc _ _ fun x x' k => by rw [k.text]
  | modified => exact h.askDoc _ _ fun x x' k => by simp only [k.doc.marks]
  | cursor => exact h.askDoc _ _ fun x x' k => by rw [k.doc.cursor]
  | inBounds p => exact h.askDoc _ _ fun x x' k => by rw [k.doc.zip.has hP]
  | id => exact h.askDoc _ _ fun x x' k => by rw [k.id]
  | path => exact h.askDoc _ _ fun x x' k => by rw [k.path]
  | name => exact h.askDoc _ _ fun x x' k => by rw [k.path]
  | extension => exact h.askDoc _ _ fun x x' k => by rw [k.path]
  | index => simp only [Desktop.reply, h.isEmpty, h.sel]
  | currentPath =>
    simp only [Desktop.reply]
    rcases h.selected with ⟨k1, k2⟩ | ⟨x, x', k1, k2, k3⟩
    · rw [k1, k2]
    · rw [k1, k2, Option.bind_some, Option.bind_some, k3.path]
  | paths =>
    simp only [Desktop.reply]
    congr 1
    have := h.items
    generalize d.docs.tabs.items = l at this
    generalize d'.docs.tabs.items = l' at this
    induction this with
    | nil => rfl
    | cons k _ ih => simp only [List.map_cons, k.path, ih]
  | tokens =>
    simp only [Desktop.reply]
    rcases h.selected with ⟨k1, k2⟩ | ⟨x, x', k1, k2, k3⟩
    · rw [k1, k2]
    · rw [k1, k2]; simp only [k3.syn, k3.text]

theorem TwinS.ending {x x' : Sheet σ} (h : TwinS S P x x') (env : SaveEnv) : Desktop.ending W x' env = Desktop.ending W x env := by
  unfold Desktop.ending; rw [h.target, h.text]

theorem TwinD.result (hP : Closed S.segs P) {d d' : Desktop σ} (h : TwinD S P d d') (s : Syntaxes σ) (a : Deed σ)
    (hc : Desktop.OrdinaryLine S.segs W P d (.deed a)) : d'.result S.segs g' s W a = d.result S.segs g s W a := by
  cases a with
  | fresh | close | next | previous => rfl
  | setSyntax => exact h.askDoc _ _ fun x x' k => rfl
  | openPath clock readable p => exact (h.openPath hP s clock readable p hc).2
  | updateSyntax => simp only [Desktop.result, h.isEmpty]
  | cmd c =>
    cases c with
    | move m =>
      cases m with
      | «to» p => exact h.askDoc _ _ fun x x' k => by rw [k.doc.zip.has hP]
      | _ => exact h.askDoc _ _ fun x x' k => rfl
    | _ => exact h.askDoc _ _ fun x x' k => rfl
  | save env => exact h.askDoc _ _ fun x x' k => by rw [k.ending]
  | saveAs p env =>
    refine h.askDoc _ _ fun x x' k => ?_
    rw [TwinS.ending (x := { x with path := some p }) (x' := { x' with path := some p }) ⟨k.doc, k.id, rfl, k.syn⟩]
  | reload readable => exact h.askDoc _ _ fun x x' k => by rw [h.files, k.path]

theorem TwinD.talk (hP : Closed S.segs P) (s : Syntaxes σ) (root : Path) (ls : List (Line σ)) {d d' : Desktop σ} (h : TwinD S P d d')
    (hc : Desktop.OrdinaryLines S.segs g s W P d ls) :
    (d'.talk S.segs g' s W root ls).1 = (d.talk S.segs g s W root ls).1 ∧ TwinD S P (d.talk S.segs g s W root ls).2 (d'.talk S.segs g' s W root ls).2 := by
  induction ls generalizing d d' with
  | nil => exact ⟨rfl, h⟩
  | cons l ls ih =>
    cases l with
    | deed a =>
      obtain ⟨k1, k2⟩ := ih (h.step hP (g := g) (g' := g') s a hc.1) hc.2
      exact ⟨by simp only [Desktop.talk, k1, h.result hP (g := g) (g' := g') s a hc.1], k2⟩
    | ask q =>
      obtain ⟨k1, k2⟩ := ih h hc.2
      exact ⟨by simp only [Desktop.talk, k1, h.reply hP root q], k2⟩

end Scribe
