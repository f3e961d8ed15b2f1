import Verif.Spec.Convert
import Verif.Props.Unwind
/-!
# C119: conversions that panic
-/
namespace Scribe.Props
open Spec Unwind
open Scribe.Buf (Cmd)
variable (S : Segmenter) (A : Alloc) (fate : Fate)

/-- **C119.** A call whose argument panics while it is converted is unwound with the buffer as it was; nothing of it is changed. -/
theorem C119_untouched (b : Buf) (t : Text) (ht : b.data.toStr = .ok t) (c : ConvCmd) (hp : panics t c = true) :
    execConv S A fate b c = .ok (.unwound b) := by
  cases c with
  | cmd c => simp [panics] at hp
  | insert v =>
    simp only [panics, Option.isNone_iff_eq_none] at hp
    simp only [execConv, insertConv, hp]
  | replace v =>
    simp only [execConv, replaceConv, ht, Except.ok_bind']
    cases h1 : v.asRef with
    | none => rfl
    | some s =>
      cases h2 : v.into with
      | none =>
        simp only [panics, h1, h2, decide_eq_true_eq] at hp
        simp only [if_neg hp]; rfl
      | some s' => simp [panics, h1, h2] at hp

/-- **C119.** A call whose argument is converted is the call with the string. -/
theorem C119_converted (b : Buf) (t : Text) (ht : b.data.toStr = .ok t) (c : ConvCmd) (ha : Agrees c) (c' : Cmd) (hc : plainCall c = some c') :
    execConv S A fate b c = exec S A fate b c' := by
  cases c with
  | cmd c => cases hc; rfl
  | insert v =>
    simp only [plainCall, Option.map_eq_some_iff] at hc
    obtain ⟨s, h1, rfl⟩ := hc
    simp only [execConv, insertConv, h1, exec]
  | replace v =>
    simp only [plainCall] at hc
    cases h1 : v.asRef with
    | none => rw [h1] at hc; cases hc
    | some s =>
      cases h2 : v.into with
      | none => rw [h1, h2] at hc; cases hc
      | some s' =>
        rw [h1, h2] at hc
        cases hc
        obtain rfl := ha s s' h1 h2
        simp only [execConv, replaceConv, exec, replace, ht, h1, h2, Except.ok_bind']

/-- **C119.** If `as_ref()` gives the contents, `replace` returns and changes nothing, whatever `into()` would do. -/
theorem C119_unneeded (b : Buf) (t : Text) (ht : b.data.toStr = .ok t) (v : Conv) (hv : v.asRef = some t) : execConv S A fate b (.replace v) = .ok (.done b) := by
  simp only [execConv, replaceConv, ht, Except.ok_bind', hv, if_true]; rfl

theorem session_safe {b : Buf} (h : Sane b) (cs : List ConvCmd) (ha : ∀ c ∈ cs, Agrees c) :
    sessionConv S A fate b cs = session S A fate b (cs.filterMap plainCall) ∧
      ∃ b' u, sessionConv S A fate b cs = .ok b' ∧ b'.data.toStr = .ok u := by
  induction cs generalizing b with
  | nil => obtain ⟨u, hu⟩ := h.toStr; exact ⟨rfl, b, u, rfl, hu⟩
  | cons c cs ih =>
    obtain ⟨t, ht⟩ := h.toStr
    have ha' := fun c hc => ha c (List.mem_cons_of_mem _ hc)
    cases hc : plainCall c with
    | some c' =>
      rw [List.filterMap_cons_some hc]
      obtain ⟨o, b', h1, h2, h3⟩ := exec_sane (fate := fate) (S := S) (A := A) h c'
      have e := (C119_converted S A fate b t ht c (ha c (by simp)) c' hc).trans h1
      obtain ⟨k1, k2⟩ := ih h3 ha'
      simp only [sessionConv, session, e, h1, Except.ok_bind']
      rcases h2 with rfl | rfl <;> exact ⟨k1, k2⟩
    | none =>
      rw [List.filterMap_cons_none hc]
      obtain ⟨k1, k2⟩ := ih h ha'
      have e : execConv S A fate b c = .ok (.unwound b) ∨ execConv S A fate b c = .ok (.done b) := by
        cases hp : panics t c with
        | true => exact Or.inl (C119_untouched S A fate b t ht c hp)
        | false =>
          cases c with
          | cmd c => cases hc
          | insert v =>
            simp only [panics, Option.isNone_eq_false_iff, Option.isSome_iff_exists] at hp
            obtain ⟨s, hs⟩ := hp
            simp [plainCall, hs] at hc
          | replace v =>
            cases h1 : v.asRef with
            | none => simp [panics, h1] at hp
            | some s =>
              cases h2 : v.into with
              | some s' => simp [plainCall, h1, h2] at hc
              | none =>
                simp only [panics, h1, h2, decide_eq_false_iff_not, not_not] at hp
                right
                simp only [execConv, replaceConv, ht, Except.ok_bind', h1, if_pos hp]; rfl
      rcases e with e | e <;> simp only [sessionConv, e, Except.ok_bind'] <;> exact ⟨k1, k2⟩

/-- **C119.** A program whose callback and conversions may panic, and which catches that and goes on, is the program without the calls whose arguments could not be converted.
No call panics by itself, and the contents can be read. -/
theorem C119_session (k : Nat) (t : Option Text) (cs : List ConvCmd) (ha : ∀ c ∈ cs, Agrees c) :
    let b := match t with | some t => Buf.fromContent A k t | none => Buf.new A k
    sessionConv S A fate b cs = session S A fate b (cs.filterMap plainCall) ∧ ∃ b' u, sessionConv S A fate b cs = .ok b' ∧ b'.data.toStr = .ok u := by
  cases t with
  | none => exact session_safe S A fate (sane_new k) cs ha
  | some t => exact session_safe S A fate (sane_fromContent k t) cs ha

/-! ## Cases -/

/-- In the middle of a group, two conversions panic; the group is closed afterwards and undone as a whole. -/
example : let b := Buf.fromContent Demo.tight 0 (Demo.s "ab")
    let say := fun s => Conv.mk (some (Demo.s s)) (some (Demo.s s))
    (sessionConv Demo.seg Demo.tight (fun _ => false) b [.cmd .startGroup, .insert (say "x"), .insert ⟨none, none⟩, .replace ⟨some (Demo.s "q"), none⟩, .insert (say "y"), .cmd .endGroup]).map
      (fun b => (b.data.toStr, b.history.previous.length)) = .ok (.ok (Demo.s "yxab"), 1) ∧
    (sessionConv Demo.seg Demo.tight (fun _ => false) b [.cmd .startGroup, .insert (say "x"), .insert ⟨none, none⟩, .insert (say "y"), .cmd .endGroup, .cmd .undo]).map
      (fun b => b.data.toStr) = .ok (.ok (Demo.s "ab")) := by decide +kernel

/-- If `as_ref()` gives the contents, `into()` is not called and cannot panic. -/
example : let b := Buf.fromContent Demo.tight 0 (Demo.s "ab")
    execConv Demo.seg Demo.tight (fun _ => false) b (.replace ⟨some (Demo.s "ab"), none⟩) = .ok (.done b) ∧
    execConv Demo.seg Demo.tight (fun _ => false) b (.replace ⟨some (Demo.s "abc"), none⟩) = .ok (.unwound b) := by decide +kernel

end Scribe.Props
