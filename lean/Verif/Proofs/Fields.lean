import Verif.Spec.Fields
import Verif.Proofs.Workspace
/-! Programs that assign to the public fields of a workspace. -/
namespace Scribe.Workspace
open Spec
variable {σ : Type} {A : Alloc}

/-- `w` shows what the specification says. -/
inductive On (A : Alloc) (w : Workspace σ) (b : Bench σ) : Prop where
  | normal (h : Rel A w b.desk) (ho : b.out = false) (hs : b.stray = none) (hp : w.path = b.path) (hy : w.syntaxes = b.syntaxes)
  | out (w' : Workspace σ) (h : Rel A w' b.desk) (hc : w'.current = some (FileBuf.new A 0)) (hw : w = { w' with current := none })
      (ho : b.out = true) (hs : b.stray = none) (hp : w.path = b.path) (hy : w.syntaxes = b.syntaxes)
  | stray (x : FileBuf σ) (hi : b.desk.tabs.items = []) (hb : w.buffers = []) (hn : w.index = none) (hc : w.current = some x)
      (hd : w.nextId = b.desk.nextId) (ho : b.out = false) (hs : b.stray = some x) (hp : w.path = b.path) (hy : w.syntaxes = b.syntaxes)

/-- Selecting a place overwrites the current buffer; whether it was an empty one or none makes no difference. -/
theorem select_out {w : Workspace σ} {i : Nat} (hi : w.index = some i) (hb : w.buffers[i]? = some (FileBuf.new A 0))
    (hc : w.current = some (FileBuf.new A 0)) {j : Nat} (hj : j < w.buffers.length) :
    ({ w with current := none } : Workspace σ).selectBuffer A j = w.selectBuffer A j := by
  have h1 : w.checkIn = .ok w := by
    unfold checkIn
    simp only [hc, hi, hb]
    obtain ⟨p, bs, n, c, ix, s⟩ := w
    simp only at hc hb hi ⊢
    subst hc hi
    congr 2
    apply List.ext_getElem?
    intro k
    rw [List.getElem?_set]
    split
    · rename_i e
      subst e
      rw [hb, if_pos (List.getElem?_eq_some_iff.mp hb).1]
    · rfl
  unfold selectBuffer
  rw [h1]
  show Except.ok _ = Except.ok _
  unfold checkOut
  simp only [List.getElem?_eq_getElem hj]

theorem rel_place {w : Workspace σ} {d : Desk σ} (h : Rel A w d) {c : FileBuf σ} (hc : w.current = some c) :
    ∃ i, w.index = some i ∧ w.buffers[i]? = some (FileBuf.new A 0) ∧ i < w.buffers.length ∧ w.buffers.length = d.tabs.items.length := by
  cases h with
  | empty _ _ _ hc' => rw [hc'] at hc; cases hc
  | sel a c z h hs hb hi hc' hn =>
    refine ⟨a.length, hi, by rw [hb, get_mid], by rw [hb]; simp, by rw [hb, h]; simp⟩

theorem add_out {w : Workspace σ} {i : Nat} (hi : w.index = some i) (hb : w.buffers[i]? = some (FileBuf.new A 0))
    (hc : w.current = some (FileBuf.new A 0)) (x : FileBuf σ) :
    ({ w with current := none } : Workspace σ).addBuffer A x = w.addBuffer A x := by
  have hil := (List.getElem?_eq_some_iff.mp hb).1
  unfold addBuffer
  simp only [hi, Option.map_some, Option.getD_some]
  unfold vecInsert
  rw [if_pos (by omega)]
  simp only [Except.ok_bind']
  have := select_out (A := A) (w := { w with nextId := w.nextId + 1, buffers := w.buffers.insertIdx (i + 1) { x with id := some w.nextId } }) (i := i) hi
    (by
      simp only
      rw [List.getElem?_insertIdx_of_lt (by omega)]
      exact hb) hc (j := i + 1) (by simp only; rw [List.length_insertIdx_of_le_length (by omega)]; omega)
  simp only [hi] at this
  rw [this]

theorem next_out {w : Workspace σ} {i : Nat} (hi : w.index = some i) (hb : w.buffers[i]? = some (FileBuf.new A 0))
    (hc : w.current = some (FileBuf.new A 0)) :
    ({ w with current := none } : Workspace σ).nextBuffer A = w.nextBuffer A := by
  have hil := (List.getElem?_eq_some_iff.mp hb).1
  unfold nextBuffer
  simp only [hi]
  rw [show subU w.buffers.length 1 = .ok (w.buffers.length - 1) by unfold subU; rw [if_pos (by omega)]]
  simp only [Except.ok_bind']
  have e := fun j => select_out (A := A) (w := w) hi hb hc (j := j)
  simp only [hi] at e
  split
  · rw [e 0 (by omega)]
  · rw [e (i + 1) (by omega)]

theorem previous_out {w : Workspace σ} {i : Nat} (hi : w.index = some i) (hb : w.buffers[i]? = some (FileBuf.new A 0))
    (hc : w.current = some (FileBuf.new A 0)) :
    ({ w with current := none } : Workspace σ).previousBuffer A = w.previousBuffer A := by
  have hil := (List.getElem?_eq_some_iff.mp hb).1
  unfold previousBuffer
  simp only [hi]
  have e := fun j => select_out (A := A) (w := w) hi hb hc (j := j)
  simp only [hi] at e
  split
  · rw [e (i - 1) (by omega)]
  · rw [show subU w.buffers.length 1 = .ok (w.buffers.length - 1) by unfold subU; rw [if_pos (by omega)]]
    simp only [Except.ok_bind']
    rw [e _ (by omega)]

/-- Opening with the current buffer taken out: the same as with the empty buffer there, unless it fails. -/
theorem open_out {w : Workspace σ} {i : Nat} (hi : w.index = some i) (hb : w.buffers[i]? = some (FileBuf.new A 0))
    (hc : w.current = some (FileBuf.new A 0)) (k : Nat) (f0 f1 f2 : Fs) (p : Path) {r : Bool} {w1 : Workspace σ}
    (h : w.openBuffer A k f0 f1 f2 p = .ok (r, w1)) :
    (r = true ∧ ({ w with current := none } : Workspace σ).openBuffer A k f0 f1 f2 p = .ok (true, w1)) ∨
    (r = false ∧ w1 = w ∧ ({ w with current := none } : Workspace σ).openBuffer A k f0 f1 f2 p = .ok (false, { w with current := none })) := by
  -- nothing found
  have hno : w.selectBufferByPath A f0 p = .ok (false, w) → ({ w with current := none } : Workspace σ).selectBufferByPath A f0 p = .ok (false, { w with current := none }) →
      (r = true ∧ ({ w with current := none } : Workspace σ).openBuffer A k f0 f1 f2 p = .ok (true, w1)) ∨
      (r = false ∧ w1 = w ∧ ({ w with current := none } : Workspace σ).openBuffer A k f0 f1 f2 p = .ok (false, { w with current := none })) := by
    intro h1 h2
    unfold openBuffer at h ⊢
    rw [h1] at h
    rw [h2]
    simp only [Except.ok_bind', Bool.false_eq_true, if_false] at h ⊢
    cases hf : (FileBuf.fromFile A k f1 f2 p : Option (FileBuf σ)) with
    | none =>
      rw [hf] at h
      cases h
      exact Or.inr ⟨rfl, rfl, rfl⟩
    | some x =>
      rw [hf] at h
      simp only at h ⊢
      rw [add_out hi hb hc]
      cases ha : w.addBuffer A x with
      | error e => rw [ha] at h; cases h
      | ok w2 =>
        rw [ha] at h
        cases h
        exact Or.inl ⟨rfl, rfl⟩
  cases hcan : f0.canon p with
  | none =>
    apply hno
    · unfold selectBufferByPath; rw [hcan]
    · unfold selectBufferByPath; rw [hcan]
  | some q =>
    have c1 : ¬ (w.current.bind (·.path) = some q) := by rw [hc]; simp [FileBuf.new]
    have c2 : ¬ (({ w with current := none } : Workspace σ).current.bind (·.path) = some q) := by simp
    cases hf : w.buffers.findIdx? (fun b => decide (b.path = some q)) with
    | none =>
      apply hno
      · unfold selectBufferByPath; rw [hcan]; simp only [if_neg c1, hf]
      · unfold selectBufferByPath; rw [hcan]; simp only [if_neg c2, hf]
    | some j =>
      have hj : j < w.buffers.length := by
        rw [List.findIdx?_eq_some_iff_getElem] at hf
        exact hf.1
      have e1 : w.selectBufferByPath A f0 p = w.selectBuffer A j := by
        unfold selectBufferByPath; rw [hcan]; simp only [if_neg c1, hf]
      have e2 : ({ w with current := none } : Workspace σ).selectBufferByPath A f0 p = w.selectBuffer A j := by
        unfold selectBufferByPath; rw [hcan]; simp only [if_neg c2, hf]
        exact select_out hi hb hc hj
      unfold openBuffer at h ⊢
      rw [e1] at h
      rw [e2]
      cases hs : w.selectBuffer A j with
      | error e => rw [hs] at h; cases h
      | ok x =>
        obtain ⟨fl, w2⟩ := x
        have hfl : fl = true := by
          unfold selectBuffer at hs
          cases hci : w.checkIn with
          | error e => rw [hci] at hs; cases hs
          | ok w3 =>
            rw [hci] at hs
            have hl : w3.buffers.length = w.buffers.length := by
              unfold checkIn at hci
              simp only [hc, hi, hb] at hci
              cases hci
              simp
            simp only [Except.ok_bind'] at hs
            unfold checkOut at hs
            rw [List.getElem?_eq_getElem (by omega)] at hs
            cases hs
            rfl
        subst hfl
        rw [hs] at h
        cases h
        exact Or.inl ⟨rfl, rfl⟩

theorem current_eq {w : Workspace σ} {b : Bench σ} (h : On A w b) : w.current = b.current := by
  unfold Bench.current
  cases h with
  | normal h ho hs => rw [hs, ho]; exact h.selected.symm
  | out w' h hc hw ho hs => rw [hs, ho, hw]; rfl
  | stray x hi hb hn hc hd ho hs => rw [hs, hc]

theorem index_eq {w : Workspace σ} {b : Bench σ} (h : On A w b) : w.index = if b.desk.tabs.items.isEmpty then none else some b.desk.tabs.sel := by
  cases h with
  | normal h => exact h.index
  | out w' h hc hw => rw [hw]; exact h.index
  | stray x hi hb hn => rw [hn, hi]; rfl

theorem On.out_call {w : Workspace σ} {b : Bench σ} (c : Call σ) {w' : Workspace σ} (h : Rel A w' b.desk) (hc : w'.current = some (FileBuf.new A 0))
    (hw : w = { w' with current := none }) (ho : b.out = true) (hs : b.stray = none) (hp : w.path = b.path) (hy : w.syntaxes = b.syntaxes) :
    ∃ w1, w.call A c = .ok ((b.outCall A c).1, w1) ∧ On A w1 (b.outCall A c).2 := by
  obtain ⟨i, k1, k2, k3, k4⟩ := rel_place h hc
  have hp' : w'.path = b.path := by rw [hw] at hp; exact hp
  have hy' : w'.syntaxes = b.syntaxes := by rw [hw] at hy; exact hy
  cases c with
  | edit f =>
    refine ⟨w, ?_, .out w' h hc hw ho hs hp hy⟩
    rw [hw]; rfl
  | updateSyntax =>
    refine ⟨w, ?_, .out w' h hc hw ho hs hp hy⟩
    rw [hw]; rfl
  | add x =>
    obtain ⟨w1, e1, e2, e3, e4⟩ := h.add x
    rw [hy'] at e2
    refine ⟨w1, ?_, .normal e2 rfl hs (e3.trans hp') (e4.trans hy')⟩
    simp only [call, hw, add_out k1 k2 hc, e1]; rfl
  | close =>
    obtain ⟨w1, e1, e2, e3, e4⟩ := h.close
    refine ⟨w1, ?_, .normal e2 rfl hs (e3.trans hp') (e4.trans hy')⟩
    have : ({ w' with current := none } : Workspace σ).closeCurrentBuffer A = w'.closeCurrentBuffer A := rfl
    simp only [call, hw, this, e1]; rfl
  | next =>
    obtain ⟨w1, e1, e2, e3, e4⟩ := h.next
    refine ⟨w1, ?_, .normal e2 rfl hs (e3.trans hp') (e4.trans hy')⟩
    simp only [call, hw, next_out k1 k2 hc, e1]; rfl
  | previous =>
    obtain ⟨w1, e1, e2, e3, e4⟩ := h.previous
    refine ⟨w1, ?_, .normal e2 rfl hs (e3.trans hp') (e4.trans hy')⟩
    simp only [call, hw, previous_out k1 k2 hc, e1]; rfl
  | openPath k f0 f1 f2 p =>
    obtain ⟨w1, e1, e2, e3, e4⟩ := h.openPath k f0 f1 f2 p
    rw [hy'] at e1 e2
    rcases open_out k1 k2 hc k f0 f1 f2 p e1 with ⟨r1, r2⟩ | ⟨r1, r2, r3⟩
    · refine ⟨w1, ?_, .normal e2 ?_ hs (e3.trans hp') (e4.trans hy')⟩
      · simp only [call, hw, Bench.outCall, r1]; exact r2
      · simp only [Bench.outCall, r1]; rfl
    · subst r2
      refine ⟨{ w1 with current := none }, ?_, .out w1 e2 hc rfl ?_ hs ?_ ?_⟩
      · simp only [call, hw, Bench.outCall, r1]; exact r3
      · simp only [Bench.outCall, r1]; rfl
      · exact hp'
      · exact hy'

theorem On.stray_call {w : Workspace σ} {b : Bench σ} (c : Call σ) (x : FileBuf σ) (hi : b.desk.tabs.items = []) (hb : w.buffers = []) (hn : w.index = none)
    (hc : w.current = some x) (hd : w.nextId = b.desk.nextId) (ho : b.out = false) (hs : b.stray = some x) (hp : w.path = b.path) (hy : w.syntaxes = b.syntaxes) :
    match b.strayCall x c with
    | none => w.call A c = .error .unwrap
    | some (r, b') => ∃ w1, w.call A c = .ok (r, w1) ∧ On A w1 b' := by
  have hadd : ∀ y : FileBuf σ, w.addBuffer A y = .error .unwrap := by
    intro y
    unfold addBuffer
    rw [hb, hn]
    simp only [Option.map_none, Option.getD_none]
    rw [show vecInsert ([] : List (FileBuf σ)) 0 { y with id := some w.nextId } = .ok [{ y with id := some w.nextId }] from rfl]
    simp only [Except.ok_bind']
    unfold selectBuffer checkIn
    simp only [hc]
    rfl
  have self : On A w b := .stray x hi hb hn hc hd ho hs hp hy
  cases c with
  | add y =>
    simp only [Bench.strayCall, call, hadd]
    rfl
  | openPath k f0 f1 f2 p =>
    simp only [Bench.strayCall, call]
    have hno : ¬ ((f0.canon p).isSome ∧ x.path = f0.canon p) → w.selectBufferByPath A f0 p = .ok (false, w) := by
      intro h
      unfold selectBufferByPath
      cases hcan : f0.canon p with
      | none => rfl
      | some q =>
        rw [hcan] at h
        simp only [hc, Option.bind_some, hb]
        rw [if_neg (fun e => h ⟨rfl, e⟩)]
        rfl
    split
    · rename_i heq
      split at heq
      · cases heq
      · rename_i h
        split at heq
        · rename_i hop
          unfold openBuffer
          rw [hno h]
          simp only [Except.ok_bind', Bool.false_eq_true, if_false, FileBuf.fromFile]
          unfold Bench.opens at hop
          cases h1 : f1.readToString p with
          | none => rw [h1] at hop; cases hop
          | some t =>
            cases h2 : f2.canon p with
            | none => rw [h1, h2] at hop; cases hop
            | some q =>
              show (do let w ← w.addBuffer A _; pure (true, w)) = _
              rw [hadd]; rfl
        · cases heq
    · rename_i r b' heq
      split at heq
      · rename_i h
        cases heq
        refine ⟨w, ?_, self⟩
        unfold openBuffer selectBufferByPath
        obtain ⟨h1, h2⟩ := h
        cases hcan : f0.canon p with
        | none => rw [hcan] at h1; cases h1
        | some q =>
          rw [hcan] at h2
          simp only [hc, Option.bind_some, h2, if_true, Except.ok_bind']
          rfl
      · rename_i h
        split at heq
        · cases heq
        · rename_i hop
          cases heq
          refine ⟨w, ?_, self⟩
          unfold openBuffer
          rw [hno h]
          simp only [Except.ok_bind', Bool.false_eq_true, if_false, FileBuf.fromFile]
          unfold Bench.opens at hop
          cases h1 : f1.readToString p with
          | none => rfl
          | some t =>
            cases h2 : f2.canon p with
            | none => rfl
            | some q => rw [h1, h2] at hop; exact absurd rfl hop
  | close =>
    refine ⟨{ w with current := none }, ?_, .normal (.empty hi hb hn rfl hd) ho rfl hp hy⟩
    simp only [call, closeCurrentBuffer, hn]; rfl
  | next =>
    refine ⟨w, ?_, self⟩
    simp only [call, nextBuffer, hn]; rfl
  | previous =>
    refine ⟨w, ?_, self⟩
    simp only [call, previousBuffer, hn]; rfl
  | edit f =>
    refine ⟨{ w with current := some (f x) }, ?_, .stray (f x) hi hb hn rfl hd ho rfl hp hy⟩
    simp only [call, hc]; rfl
  | updateSyntax =>
    refine ⟨{ w with current := some { x with syn := some (chooseSyntax b.syntaxes x) } }, ?_, .stray _ hi hb hn rfl hd ho rfl hp hy⟩
    simp only [call, updateCurrentSyntax, hc, chooseSyntax_eq, hy]

/-- One step. -/
theorem On.step {w : Workspace σ} {b : Bench σ} (h : On A w b) (c : Step σ) :
    match b.step A c with
    | none => w.step A c = .error .unwrap
    | some (r, b') => ∃ w1, w.step A c = .ok (r, w1) ∧ On A w1 b' := by
  cases c with
  | setPath p =>
    refine ⟨_, rfl, ?_⟩
    cases h with
    | normal h ho hs hp hy =>
      refine .normal ?_ ho hs rfl hy
      cases h with
      | empty h hb hi hc hn => exact .empty h hb hi hc hn
      | sel a c z h hs hb hi hc hn => exact .sel a c z h hs hb hi hc hn
    | out w' h hc hw ho hs hp hy =>
      refine .out { w' with path := p } ?_ hc (by rw [hw]) ho hs rfl hy
      cases h with
      | empty h hb hi hc hn => exact .empty h hb hi hc hn
      | sel a c z h hs hb hi hc hn => exact .sel a c z h hs hb hi hc hn
    | stray x hi hb hn hc hd ho hs hp hy => exact .stray x hi hb hn hc hd ho hs rfl hy
  | setSyntaxes s =>
    refine ⟨_, rfl, ?_⟩
    cases h with
    | normal h ho hs hp hy =>
      refine .normal ?_ ho hs hp rfl
      cases h with
      | empty h hb hi hc hn => exact .empty h hb hi hc hn
      | sel a c z h hs hb hi hc hn => exact .sel a c z h hs hb hi hc hn
    | out w' h hc hw ho hs hp hy =>
      refine .out { w' with syntaxes := s } ?_ hc (by rw [hw]) ho hs hp rfl
      cases h with
      | empty h hb hi hc hn => exact .empty h hb hi hc hn
      | sel a c z h hs hb hi hc hn => exact .sel a c z h hs hb hi hc hn
    | stray x hi hb hn hc hd ho hs hp hy => exact .stray x hi hb hn hc hd ho hs hp rfl
  | put o =>
    -- the list with some buffer in its place
    have full : ∀ w0 : Workspace σ, Rel A w0 b.desk → b.desk.tabs.items.isEmpty = false → ∀ y : FileBuf σ,
        Rel A { w0 with current := some y } ⟨b.desk.tabs.edit fun _ => y, b.desk.nextId⟩ := by
      intro w0 hr hne y
      have := hr.edit fun _ => y
      cases hr with
      | empty h => rw [h] at hne; cases hne
      | sel a c z h hs hb hi hc hn =>
        rw [hc] at this
        exact this
    cases he : b.desk.tabs.items.isEmpty with
    | true =>
      have hitems := List.isEmpty_iff.mp he
      have hw : w.buffers = [] ∧ w.index = none ∧ w.nextId = b.desk.nextId ∧ b.out = false ∧ w.path = b.path ∧ w.syntaxes = b.syntaxes := by
        cases h with
        | normal h ho hs hp hy =>
          cases h with
          | empty h hb hi hc hn => exact ⟨hb, hi, hn, ho, hp, hy⟩
          | sel a c z h => rw [h] at hitems; simp at hitems
        | out w' h hc hw ho hs hp hy =>
          cases h with
          | empty h hb hi hc' hn => rw [hc'] at hc; cases hc
          | sel a c z h => rw [h] at hitems; simp at hitems
        | stray x hi hb hn hc hd ho hs hp hy => exact ⟨hb, hn, hd, ho, hp, hy⟩
      obtain ⟨q1, q2, q3, q4, q5, q6⟩ := hw
      cases o with
      | none =>
        simp only [Bench.step, he, if_true]
        exact ⟨_, rfl, .normal (.empty hitems q1 q2 rfl q3) q4 rfl q5 q6⟩
      | some x =>
        simp only [Bench.step, he, if_true]
        exact ⟨_, rfl, .stray x hitems q1 q2 rfl q3 q4 rfl q5 q6⟩
    | false =>
      obtain ⟨w0, hr, hx, hs', hp', hy'⟩ : ∃ w0, Rel A w0 b.desk ∧ (∀ o, ({ w with current := o } : Workspace σ) = { w0 with current := o }) ∧ b.stray = none ∧
          w.path = b.path ∧ w.syntaxes = b.syntaxes := by
        cases h with
        | normal h ho hs hp hy => exact ⟨w, h, fun _ => rfl, hs, hp, hy⟩
        | out w' h hc hw ho hs hp hy => exact ⟨w', h, fun _ => by rw [hw], hs, hp, hy⟩
        | stray x hi => rw [hi] at he; cases he
      cases o with
      | none =>
        simp only [Bench.step, he, Bool.false_eq_true, if_false]
        refine ⟨_, rfl, .out { w0 with current := some (FileBuf.new A 0) } (full w0 hr he _) rfl ?_ rfl hs' hp' hy'⟩
        exact hx none
      | some x =>
        simp only [Bench.step, he, Bool.false_eq_true, if_false]
        refine ⟨_, rfl, .normal ?_ rfl hs' hp' hy'⟩
        rw [hx]
        exact full w0 hr he x
  | call c =>
    cases h with
    | normal h ho hs hp hy =>
      obtain ⟨w1, e1, e2, e3, e4⟩ := h.call c
      simp only [Bench.step, hs, ho, Bool.false_eq_true, if_false]
      rw [hy] at e1 e2
      exact ⟨w1, e1, .normal e2 rfl rfl (e3.trans hp) (e4.trans hy)⟩
    | out w' h hc hw ho hs hp hy =>
      simp only [Bench.step, hs, ho, if_true]
      exact On.out_call c h hc hw ho hs hp hy
    | stray x hi hb hn hc hd ho hs hp hy =>
      simp only [Bench.step, hs]
      exact On.stray_call c x hi hb hn hc hd ho hs hp hy

/-- A program. -/
theorem On.steps {w : Workspace σ} {b : Bench σ} (h : On A w b) (cs : List (Step σ)) :
    match b.steps A cs with
    | none => w.steps A cs = .error .unwrap
    | some (rs, b') => ∃ w1, w.steps A cs = .ok (rs, w1) ∧ On A w1 b' := by
  induction cs generalizing w b with
  | nil => exact ⟨w, rfl, h⟩
  | cons c cs ih =>
    have h1 := h.step c
    simp only [Bench.steps, Workspace.steps]
    cases hc : b.step A c with
    | none =>
      rw [hc] at h1
      simp only at h1 ⊢
      rw [h1]; rfl
    | some x =>
      obtain ⟨r, b1⟩ := x
      rw [hc] at h1
      obtain ⟨w1, e1, e2⟩ := h1
      have h2 := ih e2
      simp only
      rw [e1]
      simp only [Except.ok_bind']
      cases hd : b1.steps A cs with
      | none =>
        rw [hd] at h2
        simp only at h2 ⊢
        rw [h2]; rfl
      | some y =>
        obtain ⟨rs, b2⟩ := y
        rw [hd] at h2
        obtain ⟨w2, f1, f2⟩ := h2
        exact ⟨w2, by rw [f1]; rfl, f2⟩

end Scribe.Workspace
