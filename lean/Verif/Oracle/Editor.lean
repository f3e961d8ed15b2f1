import Verif.Oracle.Rest
import Verif.Spec.Editor
/-! # Executable form of C79 -/
namespace Scribe.Oracle
open Spec Props

variable (S : Segmenter) (A : Alloc) (W : FileTree)

instance (segs : Text → List Text) (b : Buf) (t : Text) (c : Buf.Cmd) : Decidable (CleanFor segs b t c) := by
  cases c <;> unfold CleanFor <;> infer_instance

instance (b : Buf) : Decidable (Quiet b) := by unfold Quiet; infer_instance

instance (p : Path) : Decidable (Canonical W p) :=
  match h : W.slot p with
  | none => .isFalse fun ⟨n, h1, _⟩ => by rw [h] at h1; cases h1
  | some n => decidable_of_iff (W.real p = p) ⟨fun h1 => ⟨n, h, h1⟩, fun ⟨m, h1, h2⟩ => by rw [h] at h1; cases h1; exact h2⟩

/-- Something about the value of an option, if there is one. -/
def decSome {α : Type} (x : Option α) (P : α → Prop) [DecidablePred P] : Decidable (∀ a, x = some a → P a) :=
  match x with
  | none => .isTrue fun _ h => by cases h
  | some a => decidable_of_iff (P a) ⟨fun h b e => by cases e; exact h, fun h => h a rfl⟩

/-- Something about a result, if there is one. -/
def decOk {α : Type} (x : R α) (P : α → Prop) [DecidablePred P] : Decidable (∀ a, x = .ok a → P a) :=
  match x with
  | .error _ => .isTrue fun _ h => by cases h
  | .ok a => decidable_of_iff (P a) ⟨fun h b e => by cases e; exact h, fun h => h a rfl⟩

/-- Whether a call is something other than `saved` and `reload`. -/
def plainB : Buf.Cmd → Bool
  | .saved | .reload _ => false
  | _ => true

theorem plainB_iff (c : Buf.Cmd) : plainB c = true ↔ c ≠ .saved ∧ ∀ x, c ≠ .reload x := by
  cases c <;> simp [plainB]

/-- `Careful` as a function. -/
def carefulB (e : Editor Nat) : Deed Nat → Bool
  | .cmd c => plainB c && match e.ws.current with
    | none => true
    | some b => match b.buf.data.toStr with
      | .error _ => true
      | .ok t => decide (CleanFor S.segs b.buf t c)
  | .save env => match e.ws.current with
    | none => true
    | some b => decide (Quiet b.buf) && match b.save (W.env b.path env) e.disk with
      | .error _ => true
      | .ok r => decide (r.2.1 = .ok) || r.1.isEmpty
  | .saveAs p env => decide (Canonical W p) &&
    ((contents e.ws).zipIdx.all fun (x, i) => !decide (x.path = some p) || decide (e.ws.index = some i)) &&
    match e.ws.current with
    | none => true
    | some b => decide (Quiet b.buf) && match { b with path := some p }.save (W.env (some p) env) e.disk with
      | .error _ => true
      | .ok r => decide (r.2.1 = .ok)
  | .reload _ => match e.ws.current with
    | none => true
    | some b => decide (b.buf.group = none)
  | _ => true

theorem carefulB_iff (e : Editor Nat) (a : Deed Nat) : carefulB S W e a = true ↔ Careful S W e a := by
  cases a with
  | cmd c =>
    simp only [carefulB, Careful, Bool.and_eq_true, plainB_iff, and_assoc]
    refine and_congr_right fun _ => and_congr_right fun _ => ?_
    cases e.ws.current with
    | none => simp
    | some b =>
      cases h : b.buf.data.toStr with
      | error _ =>
        simp only [h, true_iff]
        intro b' t' h1 h2
        cases h1
        rw [h] at h2
        cases h2
      | ok t =>
        simp only [h, decide_eq_true_eq]
        exact ⟨fun k b' t' h1 h2 => by cases h1; rw [h] at h2; cases h2; exact k, fun k => k b t rfl h⟩
  | save env =>
    simp only [carefulB, Careful]
    cases e.ws.current with
    | none => simp
    | some b =>
      simp only [Bool.and_eq_true, decide_eq_true_eq, Option.some.injEq, forall_eq']
      refine and_congr_right fun _ => ?_
      cases b.save (W.env b.path env) e.disk with
      | error _ => simp
      | ok r => simp
  | saveAs p env =>
    simp only [carefulB, Careful, Bool.and_eq_true, decide_eq_true_eq, and_assoc]
    refine and_congr_right fun _ => and_congr ?_ ?_
    · rw [List.all_eq_true]
      constructor
      · intro h i x hi hp
        have := h (x, i) (List.mem_zipIdx_iff_getElem?.mpr hi)
        simpa [hp] using this
      · rintro h ⟨x, i⟩ hm
        have := h i x (List.mem_zipIdx_iff_getElem?.mp hm)
        by_cases hp : x.path = some p
        · simp [this hp]
        · simp [hp]
    · cases e.ws.current with
      | none => simp
      | some b =>
        simp only [Bool.and_eq_true, decide_eq_true_eq, Option.some.injEq, forall_eq']
        refine and_congr_right fun _ => ?_
        cases FileBuf.save { b with path := some p } (W.env (some p) env) e.disk with
        | error _ => simp
        | ok r => simp
  | reload readable =>
    simp only [carefulB, Careful]
    cases e.ws.current <;> simp
  | _ => simp [carefulB, Careful]

/-- `CarefulAll` as a function. -/
def carefulAllB (e : Editor Nat) : List (Deed Nat) → Bool
  | [] => true
  | a :: as => carefulB S W e a && match e.step S A W a with
    | .error _ => true
    | .ok e' => carefulAllB e' as

theorem carefulAllB_iff (as : List (Deed Nat)) : ∀ e : Editor Nat, carefulAllB S A W e as = true ↔ CarefulAll S A W e as := by
  induction as with
  | nil => intro e; simp [carefulAllB, CarefulAll]
  | cons a as ih =>
    intro e
    simp only [carefulAllB, CarefulAll, Bool.and_eq_true, carefulB_iff]
    refine and_congr_right fun _ => ?_
    cases e.step S A W a with
    | error _ => simp
    | ok e' => simp [ih]

instance (e : Editor Nat) (as : List (Deed Nat)) : Decidable (CarefulAll S A W e as) := decidable_of_iff _ (carefulAllB_iff S A W as e)

/-- The careful steps of a program. -/
def keepCareful (e : Editor Nat) : List (Deed Nat) → List (Deed Nat)
  | [] => []
  | a :: as =>
    if carefulB S W e a then
      match e.step S A W a with
      | .error _ => [a]
      | .ok e' => a :: keepCareful e' as
    else keepCareful e as

/-- The unmodified buffers are on the disk. -/
def onDiskB (e : Editor Nat) (b : FileBuf Nat) : Bool :=
  b.buf.modified || !decide (Quiet b.buf) || (someAnd b.path fun p => someAnd (W.slot p) fun n => okAnd b.buf.data.toStr fun t => decide (e.disk n = some (enc t)))

def o_C79_on_disk (s : Syntaxes Nat) (root : Path) (disk : Disk) (as : List (Deed Nat)) : Bool :=
  someImp (Workspace.new (fsOf none (some root)) root (some s)) fun w0 =>
    imp (CarefulAll S A W ⟨w0, disk⟩ as) <| okAnd (Editor.steps S A W ⟨w0, disk⟩ as) fun e =>
      (contents e.ws).all (onDiskB W e)

def o_C79_one_buffer (s : Syntaxes Nat) (root : Path) (disk : Disk) (as : List (Deed Nat)) : Bool :=
  someImp (Workspace.new (fsOf none (some root)) root (some s)) fun w0 =>
    imp (CarefulAll S A W ⟨w0, disk⟩ as) <| okImp (Editor.steps S A W ⟨w0, disk⟩ as) fun e =>
      (contents e.ws).zipIdx.all fun (x, i) => (contents e.ws).zipIdx.all fun (y, j) =>
        someImp x.path fun p => someImp y.path fun q => someImp (W.slot p) fun n => imp (W.slot q = some n) (decide (i = j))

def o_C79_reopen (s : Syntaxes Nat) (root : Path) (disk : Disk) (as : List (Deed Nat)) (k : Nat) : Bool :=
  someImp (Workspace.new (fsOf none (some root)) root (some s)) fun w0 =>
    imp (CarefulAll S A W ⟨w0, disk⟩ as) <| okImp (Editor.steps S A W ⟨w0, disk⟩ as) fun e =>
      someImp e.ws.current fun b => imp (b.buf.modified = false) <| imp (Quiet b.buf) <|
        someAnd b.path fun p => okAnd (e.steps S A W [.close, .openPath k true p]) fun e' =>
          someAnd e'.ws.current fun b' => decide (b'.path = some p) && decide (b'.buf.data.toStr = b.buf.data.toStr) && decide (b'.buf.modified = false)

def o_C79_failed_save (s : Syntaxes Nat) (root : Path) (disk : Disk) (as : List (Deed Nat)) : Bool :=
  someImp (Workspace.new (fsOf none (some root)) root (some s)) fun w0 =>
    imp (CarefulAll S A W ⟨w0, disk⟩ as) <| okImp (Editor.steps S A W ⟨w0, disk⟩ as) fun e =>
      someImp e.ws.current fun b => imp (b.buf.modified = false) <| imp (Quiet b.buf) <| okImp b.buf.data.toStr fun t => imp (t ≠ []) <|
        imp (b.path.getD [] ≠ []) <| okAnd (e.step S A W (.save ⟨some (some 0), [.failed]⟩)) fun e' => someAnd b.path fun p => someAnd (W.slot p) fun n =>
          decide (e.disk n = some (enc t)) && decide (e'.ws.current = some b) && decide (e'.disk n = some [])

def o_C79_hard_links (s : Syntaxes Nat) (root : Path) (disk : Disk) (p q : Path) (x : Text) (k k' : Nat) : Bool :=
  someImp (Workspace.new (fsOf none (some root)) root (some s)) fun w0 => someImp (W.slot p) fun n => imp (W.slot q = some n) <| imp (W.real p = p) <|
    imp (W.real q = q) <| imp (p ≠ q) <| imp (q ≠ []) <| someImp ((disk n).bind strict) fun t =>
      okAnd (Editor.steps S A W ⟨w0, disk⟩ [.openPath k true p, .openPath k' true q, .cmd (.insert x), .save ⟨some (some 0), [.wrote (blen (x ++ t))]⟩]) fun e =>
        match contents e.ws with
        | [b, b'] => decide (b.path = some p) && decide (b'.path = some q) && decide (b.buf.modified = false) && decide (b'.buf.modified = false) &&
          decide (b.buf.data.toStr = .ok t) && decide (b'.buf.data.toStr = .ok (x ++ t)) && decide (e.disk n = some (enc (x ++ t)))
        | _ => false

end Scribe.Oracle
