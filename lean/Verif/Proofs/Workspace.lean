import Verif.Spec.Workspace
import Verif.Proofs.GapBuffer
import Mathlib.Data.List.Basic
/-!
# The workspace refines a list with a selection
-/
namespace Scribe
open Spec
variable {σ : Type}

theorem set_mid {α} (a : List α) (x y : α) (z : List α) : (a ++ x :: z).set a.length y = a ++ y :: z := by
  induction a with
  | nil => rfl
  | cons h a ih => simp only [List.cons_append, List.length_cons, List.set_cons_succ, ih]

theorem get_mid {α} (a : List α) (x : α) (z : List α) : (a ++ x :: z)[a.length]? = some x := by simp

theorem take_mid {α} (a : List α) (z : List α) : (a ++ z).take a.length = a := by simp
theorem take_mid' {α} (a : List α) (x : α) (z : List α) : (a ++ x :: z).take (a.length + 1) = a ++ [x] := by
  induction a with
  | nil => rfl
  | cons h a ih => simp only [List.cons_append, List.length_cons, List.take_succ_cons, ih]
theorem drop_mid {α} (a : List α) (x : α) (z : List α) : (a ++ x :: z).drop (a.length + 1) = z := by
  induction a with
  | nil => rfl
  | cons h a ih => simp only [List.cons_append, List.length_cons, List.drop_succ_cons, ih]
theorem insertIdx_mid {α} (a : List α) (x y : α) (z : List α) : (a ++ x :: z).insertIdx (a.length + 1) y = a ++ x :: y :: z := by
  induction a with
  | nil => rfl
  | cons h a ih => simp only [List.cons_append, List.length_cons, List.insertIdx_succ_cons, ih]
theorem eraseIdx_mid {α} (a : List α) (x : α) (z : List α) : (a ++ x :: z).eraseIdx a.length = a ++ z := by
  induction a with
  | nil => rfl
  | cons h a ih => simp only [List.cons_append, List.length_cons, List.eraseIdx_cons_succ, ih]
theorem modify_mid {α} (a : List α) (x : α) (z : List α) (f : α → α) : (a ++ x :: z).modify a.length f = a ++ f x :: z := by
  induction a with
  | nil => rfl
  | cons h a ih => simp only [List.cons_append, List.length_cons, List.modify_succ_cons, ih]
theorem split_at {α} (l : List α) (i : Nat) (h : i < l.length) : ∃ a x z, l = a ++ x :: z ∧ i = a.length :=
  ⟨l.take i, l[i], l.drop (i + 1), by rw [List.getElem_cons_drop, List.take_append_drop], by rw [List.length_take]; omega⟩

namespace Workspace
variable {A : Alloc}

/-- The workspace `w` represents the list with selection `d`. The place of the selected buffer in `buffers` holds an empty buffer. -/
inductive Rel (A : Alloc) (w : Workspace σ) (d : Desk σ) : Prop where
  | empty (h : d.tabs.items = []) (hb : w.buffers = []) (hi : w.index = none) (hc : w.current = none) (hn : w.nextId = d.nextId)
  | sel (a : List (FileBuf σ)) (c : FileBuf σ) (z : List (FileBuf σ)) (h : d.tabs.items = a ++ c :: z) (hs : d.tabs.sel = a.length)
      (hb : w.buffers = a ++ FileBuf.new A 0 :: z) (hi : w.index = some a.length) (hc : w.current = some c) (hn : w.nextId = d.nextId)

theorem Rel.checkOut {w : Workspace σ} {items : List (FileBuf σ)} (hb : w.buffers = items) (j : Nat) (hj : j < items.length) :
    (w.checkOut A j).1 = true ∧ Rel A (w.checkOut A j).2 ⟨⟨items, j⟩, w.nextId⟩ ∧ (w.checkOut A j).2.path = w.path ∧
      (w.checkOut A j).2.syntaxes = w.syntaxes := by
  obtain ⟨a, x, z, rfl, rfl⟩ := split_at items j hj
  unfold Workspace.checkOut
  rw [hb, get_mid, set_mid]
  exact ⟨rfl, .sel a x z rfl rfl rfl rfl rfl rfl, rfl, rfl⟩

/-- `select_buffer(j)` in a workspace whose list, with the current buffer put back in its place, is `items`. -/
theorem selectBuffer_mid (w : Workspace σ) (a z items : List (FileBuf σ)) (x c : FileBuf σ) (hb : w.buffers = a ++ x :: z) (hi : w.index = some a.length)
    (hc : w.current = some c) (he : items = a ++ c :: z) (j : Nat) (hj : j < items.length) :
    ∃ w', w.selectBuffer A j = .ok (true, w') ∧ Rel A w' ⟨⟨items, j⟩, w.nextId⟩ ∧ w'.path = w.path ∧ w'.syntaxes = w.syntaxes := by
  have hci : w.checkIn = .ok { w with current := some x, buffers := items } := by
    unfold Workspace.checkIn
    simp only [hc, hi, hb, get_mid, set_mid, he]
  obtain ⟨h1, h2, h3, h4⟩ := Rel.checkOut (A := A) (w := { w with current := some x, buffers := items }) rfl j hj
  refine ⟨_, ?_, h2, h3, h4⟩
  unfold Workspace.selectBuffer
  rw [hci]
  exact congrArg Except.ok (Prod.ext h1 rfl)

theorem Rel.select {w : Workspace σ} {d : Desk σ} (h : Rel A w d) (j : Nat) (hj : j < d.tabs.items.length) :
    ∃ w', w.selectBuffer A j = .ok (true, w') ∧ Rel A w' ⟨⟨d.tabs.items, j⟩, d.nextId⟩ ∧ w'.path = w.path ∧ w'.syntaxes = w.syntaxes := by
  cases h with
  | empty h => rw [h] at hj; simp at hj
  | sel a c z h hs hb hi hc hn =>
    rw [← hn]
    exact selectBuffer_mid w a z d.tabs.items _ c hb hi hc h j hj

theorem chooseSyntax_eq (s : Syntaxes σ) (b : FileBuf σ) :
    (((b.fileExtension.orElse fun _ => b.fileName).bind s.find).orElse fun _ => some s.plain) = some (chooseSyntax s b) := by
  unfold chooseSyntax
  cases b.fileExtension with
  | some e => simp only [Option.orElse, Option.bind]; cases s.find e <;> rfl
  | none =>
    cases b.fileName with
    | some e => simp only [Option.orElse, Option.bind]; cases s.find e <;> rfl
    | none => rfl

theorem Rel.updateSyntax {w : Workspace σ} {d : Desk σ} (h : Rel A w d) :
    w.updateCurrentSyntax.1 = (!d.tabs.items.isEmpty) ∧
    Rel A w.updateCurrentSyntax.2 ⟨d.tabs.edit fun b => { b with syn := some (chooseSyntax w.syntaxes b) }, d.nextId⟩ ∧
    w.updateCurrentSyntax.2.path = w.path ∧ w.updateCurrentSyntax.2.syntaxes = w.syntaxes := by
  unfold updateCurrentSyntax
  cases h with
  | empty h hb hi hc hn =>
    rw [hc]
    refine ⟨by rw [h]; rfl, .empty ?_ hb hi hc hn, rfl, rfl⟩
    unfold Tabs.edit; rw [h]; simp
  | sel a c z h hs hb hi hc hn =>
    rw [hc]
    dsimp only
    rw [chooseSyntax_eq]
    refine ⟨by rw [h]; simp, .sel a _ z ?_ hs hb hi rfl hn, rfl, rfl⟩
    unfold Tabs.edit; rw [h, hs, modify_mid]

theorem Rel.edit {w : Workspace σ} {d : Desk σ} (h : Rel A w d) (f : FileBuf σ → FileBuf σ) :
    Rel A { w with current := w.current.map f } ⟨d.tabs.edit f, d.nextId⟩ := by
  cases h with
  | empty h hb hi hc hn =>
    refine .empty ?_ hb hi (by rw [hc]; rfl) hn
    unfold Tabs.edit; rw [h]; simp
  | sel a c z h hs hb hi hc hn =>
    refine .sel a (f c) z ?_ hs hb hi (by rw [hc]; rfl) hn
    unfold Tabs.edit; rw [h, hs, modify_mid]

/-- The last step of `add_buffer`. -/
theorem Rel.addSyntax {w : Workspace σ} {d : Desk σ} (h : Rel A w d) :
    Rel A w.addSyntax ⟨d.tabs.edit fun b => { b with syn := some (b.syn.getD (chooseSyntax w.syntaxes b)) }, d.nextId⟩ ∧
    w.addSyntax.path = w.path ∧ w.addSyntax.syntaxes = w.syntaxes := by
  unfold Workspace.addSyntax
  cases h with
  | empty h hb hi hc hn =>
    rw [hc]
    refine ⟨.empty ?_ hb hi hc hn, rfl, rfl⟩
    unfold Tabs.edit; rw [h]; simp
  | sel a c z h hs hb hi hc hn =>
    simp only [hc, updateCurrentSyntax, chooseSyntax_eq]
    cases hsy : c.syn with
    | none =>
      refine ⟨.sel a { c with syn := some (chooseSyntax w.syntaxes c) } z ?_ hs hb hi rfl hn, rfl, rfl⟩
      unfold Tabs.edit; rw [h, hs, modify_mid, hsy]; rfl
    | some y =>
      refine ⟨.sel a c z ?_ hs hb hi hc hn, rfl, rfl⟩
      unfold Tabs.edit; rw [h, hs, modify_mid]
      obtain ⟨_, _, _, _⟩ := c
      simp only at hsy
      rw [hsy]; rfl

theorem Rel.add {w : Workspace σ} {d : Desk σ} (h : Rel A w d) (b : FileBuf σ) :
    ∃ w', w.addBuffer A b = .ok w' ∧ Rel A w' ⟨d.tabs.add (adopted w.syntaxes d.nextId b), d.nextId + 1⟩ ∧ w'.path = w.path ∧ w'.syntaxes = w.syntaxes := by
  unfold Workspace.addBuffer
  cases h with
  | empty h hb hi hc hn =>
    dsimp only
    rw [hi, hb]
    have hv : vecInsert ([] : List (FileBuf σ)) (Option.getD (Option.map (· + 1) none) 0) { b with id := some w.nextId } = .ok [{ b with id := some w.nextId }] := rfl
    rw [hv]
    simp only [Except.ok_bind']
    unfold Workspace.selectBuffer Workspace.checkIn
    simp only [hc, Except.ok_bind']
    obtain ⟨h1, h2, h3, h4⟩ := Rel.checkOut (A := A)
      (w := { w with nextId := w.nextId + 1, buffers := [{ b with id := some w.nextId }] }) rfl 0 (by simp)
    obtain ⟨k1, k2, k3⟩ := h2.addSyntax
    refine ⟨_, rfl, ?_, k2.trans h3, k3.trans h4⟩
    rw [h4] at k1
    unfold Tabs.add
    rw [h, ← hn]
    exact k1
  | sel a c z h hs hb hi hc hn =>
    dsimp only
    rw [hi, hb]
    have hv : vecInsert (a ++ FileBuf.new A 0 :: z) (Option.getD (Option.map (· + 1) (some a.length)) 0) { b with id := some w.nextId } =
        .ok (a ++ FileBuf.new A 0 :: { b with id := some w.nextId } :: z) := by
      unfold vecInsert
      simp only [Option.map_some, Option.getD_some]
      rw [if_pos (by simp), insertIdx_mid]
    rw [hv]
    simp only [Except.ok_bind']
    obtain ⟨w', e1, e2, e3, e4⟩ := selectBuffer_mid (A := A)
      { w with nextId := w.nextId + 1, buffers := a ++ FileBuf.new A 0 :: { b with id := some w.nextId } :: z }
      a ({ b with id := some w.nextId } :: z) (a ++ c :: { b with id := some w.nextId } :: z) _ c rfl hi hc rfl (a.length + 1) (by simp)
    simp only [Option.map_some, Option.getD_some] at *
    rw [hi] at e1
    rw [e1]
    simp only [Except.ok_bind']
    obtain ⟨k1, k2, k3⟩ := e2.addSyntax
    refine ⟨_, rfl, ?_, k2.trans e3, k3.trans e4⟩
    rw [e4] at k1
    have : d.tabs.add (adopted w.syntaxes d.nextId b) =
        Tabs.edit ⟨a ++ c :: { b with id := some w.nextId } :: z, a.length + 1⟩ fun b => { b with syn := some (b.syn.getD (chooseSyntax w.syntaxes b)) } := by
      unfold Tabs.add Tabs.edit
      have h0 : a ++ c :: ({ b with id := some w.nextId } : FileBuf σ) :: z = (a ++ [c]) ++ { b with id := some w.nextId } :: z := by simp
      have h1 : a.length + 1 = (a ++ [c]).length := by simp
      split
      · rename_i h'; rw [h] at h'; simp at h'
      · rw [hs, h, take_mid', drop_mid, ← hn]
        dsimp only
        rw [h0, h1, modify_mid]
        rfl
    rw [this, ← hn]
    exact k1

theorem Rel.close {w : Workspace σ} {d : Desk σ} (h : Rel A w d) :
    ∃ w', w.closeCurrentBuffer A = .ok w' ∧ Rel A w' ⟨d.tabs.close, d.nextId⟩ ∧ w'.path = w.path ∧ w'.syntaxes = w.syntaxes := by
  unfold Workspace.closeCurrentBuffer
  cases h with
  | empty h hb hi hc hn =>
    dsimp only
    rw [hi]
    refine ⟨_, rfl, .empty ?_ hb rfl rfl hn, rfl, rfl⟩
    unfold Tabs.close; rw [h]; simp
  | sel a c z h hs hb hi hc hn =>
    dsimp only
    rw [hi, hb]
    dsimp only
    have hv : vecRemove (a ++ FileBuf.new A 0 :: z) a.length = .ok (a ++ z) := by
      unfold vecRemove
      rw [if_pos (by simp), eraseIdx_mid]
    have hcl : d.tabs.close = ⟨a ++ z, a.length - 1⟩ := by
      unfold Tabs.close; rw [h, hs, take_mid, drop_mid]
    rw [hv]
    simp only [Except.ok_bind']
    by_cases he : (a ++ z).isEmpty = true
    · rw [if_pos he]
      rw [List.isEmpty_iff] at he
      exact ⟨_, rfl, .empty (by rw [hcl]; exact he) he rfl rfl hn, rfl, rfl⟩
    · rw [if_neg he]
      have hlen : a.length - 1 < (a ++ z).length := by
        rw [List.length_append]
        have : (a ++ z).length ≠ 0 := by
          intro h0; rw [List.length_eq_zero_iff] at h0; rw [h0] at he; simp at he
        rw [List.length_append] at this
        omega
      unfold Workspace.selectBuffer Workspace.checkIn
      simp only [Except.ok_bind']
      obtain ⟨h1, h2, h3, h4⟩ := Rel.checkOut (A := A)
        (w := { w with current := none, buffers := a ++ z, index := some a.length }) rfl (a.length - 1) hlen
      rw [hcl, ← hn]
      exact ⟨_, rfl, h2, h3, h4⟩

theorem Rel.next {w : Workspace σ} {d : Desk σ} (h : Rel A w d) :
    ∃ w', w.nextBuffer A = .ok w' ∧ Rel A w' ⟨d.tabs.next, d.nextId⟩ ∧ w'.path = w.path ∧ w'.syntaxes = w.syntaxes := by
  have h' := h
  unfold Workspace.nextBuffer
  cases h with
  | empty h hb hi hc hn =>
    rw [hi]
    exact ⟨_, rfl, .empty h hb hi hc hn, rfl, rfl⟩
  | sel a c z h hs hb hi hc hn =>
    have hl : d.tabs.items.length = a.length + 1 + z.length := by rw [h]; simp; omega
    have hl' : w.buffers.length = a.length + 1 + z.length := by rw [hb]; simp; omega
    rw [hi, hl']
    dsimp only
    rw [show subU (a.length + 1 + z.length) 1 = .ok (a.length + z.length) by unfold subU; rw [if_pos (by omega)]; congr 1; omega]
    simp only [Except.ok_bind']
    by_cases hz : a.length = a.length + z.length
    · rw [if_pos hz]
      obtain ⟨w', e1, e2⟩ := h'.select 0 (by omega)
      rw [e1]
      refine ⟨w', rfl, ?_⟩
      unfold Tabs.next
      rw [hs, show (a.length + 1) % d.tabs.items.length = 0 by rw [hl, show z.length = 0 by omega]; exact Nat.mod_self _]
      exact e2
    · rw [if_neg hz]
      obtain ⟨w', e1, e2⟩ := h'.select (a.length + 1) (by omega)
      rw [e1]
      refine ⟨w', rfl, ?_⟩
      unfold Tabs.next
      rw [hs, Nat.mod_eq_of_lt (by omega)]
      exact e2

theorem Rel.previous {w : Workspace σ} {d : Desk σ} (h : Rel A w d) :
    ∃ w', w.previousBuffer A = .ok w' ∧ Rel A w' ⟨d.tabs.previous, d.nextId⟩ ∧ w'.path = w.path ∧ w'.syntaxes = w.syntaxes := by
  have h' := h
  unfold Workspace.previousBuffer
  cases h with
  | empty h hb hi hc hn =>
    rw [hi]
    exact ⟨_, rfl, .empty h hb hi hc hn, rfl, rfl⟩
  | sel a c z h hs hb hi hc hn =>
    have hl : d.tabs.items.length = a.length + 1 + z.length := by rw [h]; simp; omega
    have hl' : w.buffers.length = a.length + 1 + z.length := by rw [hb]; simp; omega
    rw [hi, hl']
    dsimp only
    by_cases hz : a.length > 0
    · rw [if_pos hz]
      obtain ⟨w', e1, e2⟩ := h'.select (a.length - 1) (by omega)
      rw [e1]
      refine ⟨w', rfl, ?_⟩
      unfold Tabs.previous
      rw [hs, show a.length + d.tabs.items.length - 1 = (a.length - 1) + d.tabs.items.length by omega, Nat.add_mod_right, Nat.mod_eq_of_lt (by omega)]
      exact e2
    · rw [if_neg hz]
      rw [show subU (a.length + 1 + z.length) 1 = .ok (a.length + z.length) by unfold subU; rw [if_pos (by omega)]; congr 1; omega]
      simp only [Except.ok_bind']
      obtain ⟨w', e1, e2⟩ := h'.select (a.length + z.length) (by omega)
      rw [e1]
      refine ⟨w', rfl, ?_⟩
      unfold Tabs.previous
      rw [hs, Nat.mod_eq_of_lt (by omega), show a.length + d.tabs.items.length - 1 = a.length + z.length by omega]
      exact e2

theorem Rel.find {w : Workspace σ} {d : Desk σ} (h : Rel A w d) (p : Path) (hp : w.current.bind (·.path) ≠ some p) :
    w.buffers.findIdx? (fun b => decide (b.path = some p)) = d.tabs.items.findIdx? (fun b => decide (b.path = some p)) := by
  cases h with
  | empty h hb => rw [h, hb]
  | sel a c z h hs hb hi hc hn =>
    rw [h, hb, List.findIdx?_append, List.findIdx?_append, List.findIdx?_cons, List.findIdx?_cons]
    rw [hc] at hp
    have h1 : decide ((FileBuf.new A 0 : FileBuf σ).path = some p) = false := by simp [FileBuf.new]
    have h2 : decide (c.path = some p) = false := by simpa using hp
    rw [h1, h2]

theorem Rel.selected {w : Workspace σ} {d : Desk σ} (h : Rel A w d) : d.tabs.selected = w.current := by
  unfold Tabs.selected
  cases h with
  | empty h hb hi hc => rw [h, hc]; simp
  | sel a c z h hs hb hi hc hn => rw [h, hs, get_mid, hc]

theorem Rel.index {w : Workspace σ} {d : Desk σ} (h : Rel A w d) : w.index = if d.tabs.items.isEmpty then none else some d.tabs.sel := by
  cases h with
  | empty h hb hi hc => rw [h, hi]; simp
  | sel a c z h hs hb hi hc hn => rw [h, hs, hi]; simp

theorem Rel.nextId_eq {w : Workspace σ} {d : Desk σ} (h : Rel A w d) : w.nextId = d.nextId := by
  cases h <;> assumption

theorem Rel.openPath {w : Workspace σ} {d : Desk σ} (h : Rel A w d) (clock : Nat) (f0 f1 f2 : Fs) (p : Path) :
    ∃ w', w.openBuffer A clock f0 f1 f2 p = .ok ((d.call A w.syntaxes (.openPath clock f0 f1 f2 p)).1, w') ∧
      Rel A w' (d.call A w.syntaxes (.openPath clock f0 f1 f2 p)).2 ∧ w'.path = w.path ∧ w'.syntaxes = w.syntaxes := by
  -- no buffer with that path
  have hno : (f0.canon p).bind (findPath d.tabs) = none → w.selectBufferByPath A f0 p = .ok (false, w) →
      ∃ w', w.openBuffer A clock f0 f1 f2 p = .ok ((d.call A w.syntaxes (.openPath clock f0 f1 f2 p)).1, w') ∧
      Rel A w' (d.call A w.syntaxes (.openPath clock f0 f1 f2 p)).2 ∧ w'.path = w.path ∧ w'.syntaxes = w.syntaxes := by
    intro h1 h2
    unfold Workspace.openBuffer
    rw [h2]
    simp only [Except.ok_bind', Desk.call, h1, FileBuf.fromFile]
    cases hr : f1.readToString p with
    | none => exact ⟨w, rfl, h, rfl, rfl⟩
    | some text =>
      cases hc : f2.canon p with
      | none => exact ⟨w, rfl, h, rfl, rfl⟩
      | some c =>
        obtain ⟨w', e1, e2⟩ := h.add ⟨Buf.fromContent A clock text, none, some c, none⟩
        refine ⟨w', ?_, e2⟩
        show (do let w ← w.addBuffer A ⟨Buf.fromContent A clock text, none, some c, none⟩; pure (true, w)) = _
        rw [e1]; rfl
  have hyes : ∀ i, (f0.canon p).bind (findPath d.tabs) = some i → (∃ w', w.selectBufferByPath A f0 p = .ok (true, w') ∧
      Rel A w' ⟨⟨d.tabs.items, i⟩, d.nextId⟩ ∧ w'.path = w.path ∧ w'.syntaxes = w.syntaxes) →
      ∃ w', w.openBuffer A clock f0 f1 f2 p = .ok ((d.call A w.syntaxes (.openPath clock f0 f1 f2 p)).1, w') ∧
      Rel A w' (d.call A w.syntaxes (.openPath clock f0 f1 f2 p)).2 ∧ w'.path = w.path ∧ w'.syntaxes = w.syntaxes := by
    rintro i h1 ⟨w', e1, e2⟩
    unfold Workspace.openBuffer
    rw [e1]
    simp only [Except.ok_bind', Desk.call, h1]
    exact ⟨w', rfl, e2⟩
  unfold Workspace.selectBufferByPath at hno hyes
  cases hc : f0.canon p with
  | none => rw [hc] at hno; exact hno rfl rfl
  | some c =>
    rw [hc] at hno hyes
    dsimp only at hno hyes
    simp only [Option.bind_some] at hno hyes
    unfold findPath at hno hyes
    rw [h.selected] at hno hyes
    by_cases hcur : w.current.bind (·.path) = some c
    · rw [if_pos hcur, if_pos hcur] at hyes
      exact hyes _ rfl ⟨w, rfl, h, rfl, rfl⟩
    · rw [if_neg hcur, if_neg hcur] at hno hyes
      rw [h.find c hcur] at hno hyes
      cases hf : d.tabs.items.findIdx? (fun b => decide (b.path = some c)) with
      | none => rw [hf] at hno; exact hno rfl rfl
      | some i =>
        rw [hf] at hyes
        have hi : i < d.tabs.items.length := by
          obtain ⟨hlt, _⟩ := List.findIdx?_eq_some_iff_getElem.mp hf
          exact hlt
        exact hyes i rfl (h.select i hi)

/-- Every call does to the list with the selection what the specification says, and does not panic. -/
theorem Rel.call {w : Workspace σ} {d : Desk σ} (h : Rel A w d) (c : Call σ) :
    ∃ w', w.call A c = .ok ((d.call A w.syntaxes c).1, w') ∧ Rel A w' (d.call A w.syntaxes c).2 ∧ w'.path = w.path ∧ w'.syntaxes = w.syntaxes := by
  cases c with
  | add b => obtain ⟨w', e1, e2⟩ := h.add b; exact ⟨w', by simp only [Workspace.call, e1]; rfl, e2⟩
  | openPath clock f0 f1 f2 p => exact h.openPath clock f0 f1 f2 p
  | close => obtain ⟨w', e1, e2⟩ := h.close; exact ⟨w', by simp only [Workspace.call, e1]; rfl, e2⟩
  | next => obtain ⟨w', e1, e2⟩ := h.next; exact ⟨w', by simp only [Workspace.call, e1]; rfl, e2⟩
  | previous => obtain ⟨w', e1, e2⟩ := h.previous; exact ⟨w', by simp only [Workspace.call, e1]; rfl, e2⟩
  | edit f => exact ⟨_, rfl, h.edit f, rfl, rfl⟩
  | updateSyntax => obtain ⟨e1, e2⟩ := h.updateSyntax; exact ⟨_, congrArg Except.ok (Prod.ext e1 rfl), e2⟩

theorem Rel.calls {w : Workspace σ} {d : Desk σ} (h : Rel A w d) (cs : List (Call σ)) :
    ∃ w', w.calls A cs = .ok w' ∧ Rel A w' (d.calls A w.syntaxes cs) ∧ w'.path = w.path ∧ w'.syntaxes = w.syntaxes := by
  induction cs generalizing w d with
  | nil => exact ⟨w, rfl, h, rfl, rfl⟩
  | cons c cs ih =>
    obtain ⟨w1, e1, e2, e3, e4⟩ := h.call c
    obtain ⟨w2, f1, f2, f3, f4⟩ := ih e2
    refine ⟨w2, ?_, by rw [e4] at f2; exact f2, f3.trans e3, f4.trans e4⟩
    simp only [Workspace.calls, e1, Except.ok_bind']
    exact f1

/-- A workspace is determined by what it represents. -/
theorem Rel.unique {w w' : Workspace σ} {d : Desk σ} (h : Rel A w d) (h' : Rel A w' d) (hp : w'.path = w.path) (hs : w'.syntaxes = w.syntaxes) : w' = w := by
  obtain ⟨p1, b1, n1, c1, i1, s1⟩ := w
  obtain ⟨p2, b2, n2, c2, i2, s2⟩ := w'
  simp only at hp hs
  subst hp hs
  have e1 := h'.selected.symm.trans h.selected
  have e2 := h'.index.trans h.index.symm
  have e3 := h'.nextId_eq.trans h.nextId_eq.symm
  simp only at e1 e2 e3
  subst e1 e2 e3
  congr 1
  cases h with
  | empty h hb hi hc =>
    cases h' with
    | empty _ hb' => simp only at hb hb'; rw [hb, hb']
    | sel _ _ _ h2 => rw [h] at h2; simp at h2
  | sel a c z h hs hb hi hc hn =>
    cases h' with
    | empty h2 => rw [h] at h2; simp at h2
    | sel a' c' z' h2 hs' hb' =>
      simp only at hb hb'
      rw [h] at h2
      obtain ⟨rfl, h3⟩ := List.append_inj h2 (hs.symm.trans hs')
      cases h3
      rw [hb, hb']

end Workspace
end Scribe
