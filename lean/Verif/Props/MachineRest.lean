import Verif.Props.Workspace
import Verif.Props.TokenStream
import Verif.Props.Parser
import Verif.Proofs.MachineRest
/-!
# Machine arithmetic of iterators and workspaces (C72, C73)
-/
namespace Scribe.Machine
open Spec Props

/-- **C72.** Over any text that can exist (at most `isize::MAX` bytes), a line iterator gives in debug and in release builds exactly the results
of unbounded arithmetic, however often `next` is called. -/
theorem C72_lines [Word] (M : Mode) (data : Text) (h : blen data < 2 ^ (Word.bits - 1)) (n : Nat) :
    lineRun M n (LineIter.new data) = LineIter.run n (LineIter.new data) := by
  have hm := half_eq.symm
  exact lineRun_eq n (lfits_new (by omega))

/-- **C72.** So does a token iterator, for every parser and whatever offsets it reports, also when `next` is called again after an error; where one of them
panics, so does the other. -/
theorem C72_tokens [Word] (M : Mode) (S : Segmenter) (H : Highlighter) (data : Text) (h : blen data < 2 ^ (Word.bits - 1)) :
    tokenNew M H data = TokenIter.new H data ∧
    ∀ it, TokenIter.new H data = .ok (.ok it) → ∀ n, tokenNexts M S n it = it.nexts S n := by
  have hm := half_eq.symm
  have hl : blen data ≤ maxLen := by omega
  exact ⟨tokenNew_eq hl, fun it hn n => tokenNexts_eq n (tokenNew_fits hl hn)⟩

/-- The results of some calls on a token iterator in machine arithmetic. -/
def machineTokens [Word] (M : Mode) (offs : List (Nat × Nat)) (t : String) (n : Nat) : R (Option (List TokenSeen)) := do
  match ← tokenNew M (offsetsH offs) (Demo.s t) with
  | .error _ => return none
  | .ok it =>
    let (os, _) ← tokenNexts M Demo.seg n it
    return some (os.map fun
      | none => .nothing
      | some .newline => .newline
      | some (.lexeme v k _) => .lexeme v k)

section
attribute [local instance] word64

example : blen (Demo.s "ab\nc") < 2 ^ (Word.bits - 1) := by decide +kernel

example : lineRun .wrapping 4 (LineIter.new (Demo.s "é\nb\n")) = .ok [some (0, Demo.s "é\n"), some (1, Demo.s "b\n"), some (2, []), none] := by
  decide +kernel

example : machineTokens .checked [(1, 9), (2, 2)] "ab\nc" 6 = tokensSeen [(1, 9), (2, 2)] "ab\nc" 6 ∧
    machineTokens .wrapping [(1, 1), (2, 2)] "a\n" 5 = .ok (some [.lexeme (Demo.s "a") [], .lexeme [] [1], .newline, .nothing, .nothing]) := by
  decide +kernel

/-- Offsets beyond the line, and inside a character. -/
example : (tokenNew .wrapping (bytesH [(1, 2), (20, 3)]) (Demo.s "ab") >>= fun
      | .error _ => .ok []
      | .ok it => (tokenNexts .wrapping Demo.seg 3 it).map fun x => x.1.map (·.isSome)) = .ok [true, true, false] ∧
    (tokenNew .wrapping (bytesH [(1, 2)]) (Demo.s "é") >>= fun
      | .error _ => .ok []
      | .ok it => (tokenNexts .wrapping Demo.seg 1 it).map fun x => x.1.map (·.isSome)) = .error .slice := by
  decide +kernel

end

variable {σ : Type}

/-- **C73.** A program that adds fewer than `usize::MAX + 1` buffers to a workspace gets in debug and in release builds exactly the results of unbounded
arithmetic. -/
theorem C73_workspace [Word] (M : Mode) (A : Alloc) (fs : Fs) (path : Path) (s : Syntaxes σ) (w0 : Workspace σ) (h0 : Workspace.new fs path (some s) = some w0)
    (cs : List (Workspace.Call σ)) (h : (cs.map adds).sum < 2 ^ Word.bits) : wsCalls M A w0 cs = w0.calls A cs := by
  have hW : W = 2 ^ Word.bits := rfl
  exact wsCalls_eq cs (rel_new (A := A) h0).1 (Nat.zero_le _) (by rw [hW]; simpa [nothing] using h)

/-- **C73.** So are the values that the calls return (whether `open_buffer` and `update_current_syntax` succeed), up to the last one. -/
theorem C73_results [Word] (M : Mode) (A : Alloc) (fs : Fs) (path : Path) (s : Syntaxes σ) (w0 : Workspace σ) (h0 : Workspace.new fs path (some s) = some w0)
    (cs : List (Workspace.Call σ)) (c : Workspace.Call σ) (h : ((cs ++ [c]).map adds).sum < 2 ^ Word.bits) :
    ∃ w r w', wsCalls M A w0 cs = .ok w ∧ w0.calls A cs = .ok w ∧ wsCall M A w c = .ok (r, w') ∧ w.call A c = .ok (r, w') := by
  have hW : W = 2 ^ Word.bits := rfl
  simp only [List.map_append, List.sum_append, List.map_cons, List.map_nil, List.sum_cons, List.sum_nil, Nat.add_zero] at h
  have hr := (rel_new (A := A) h0).1
  obtain ⟨w, e1, r1, -⟩ := hr.calls cs
  have e2 := C73_workspace M A fs path s w0 h0 cs (by omega)
  have hd : ∀ (cs : List (Workspace.Call σ)) (d : Desk σ), d.tabs.items.length ≤ d.nextId →
      (d.calls A w0.syntaxes cs).tabs.items.length ≤ (d.calls A w0.syntaxes cs).nextId ∧ (d.calls A w0.syntaxes cs).nextId ≤ d.nextId + (cs.map adds).sum := by
    intro cs
    induction cs with
    | nil => intro d h; exact ⟨h, Nat.le_refl _⟩
    | cons c cs ih =>
      intro d h
      obtain ⟨k1, k2⟩ := desk_call (A := A) w0.syntaxes c h
      obtain ⟨k3, k4⟩ := ih _ k1
      rw [List.map_cons, List.sum_cons]
      exact ⟨k3, Nat.le_trans k4 (by omega)⟩
  obtain ⟨k1, k2⟩ := hd cs nothing (Nat.zero_le _)
  have hz : (nothing : Desk σ).nextId = 0 := rfl
  have e3 := wsCall_eq (M := M) r1 k1 c (by omega)
  obtain ⟨w', f1, -⟩ := r1.call c
  exact ⟨w, _, w', by rw [e2, e1], e1, by rw [e3, f1], f1⟩

theorem wsCalls_append [Word] (M : Mode) (A : Alloc) (w : Workspace σ) (cs ds : List (Workspace.Call σ)) :
    wsCalls M A w (cs ++ ds) = wsCalls M A w cs >>= fun w => wsCalls M A w ds := by
  induction cs generalizing w with
  | nil => rfl
  | cons c cs ih =>
    rw [List.cons_append, wsCalls, wsCalls]
    cases wsCall M A w c with
    | error e => rfl
    | ok x => exact ih x.2

theorem sum_churn (b : FileBuf σ) (n : Nat) : ((churn b n).map adds).sum = n := by
  induction n with
  | zero => rfl
  | succ n ih => simp only [churn, List.replicate_succ, List.flatten_cons, List.map_append, List.sum_append] at ih ⊢; rw [ih]; simp [adds]; omega

theorem desk_churn (A : Alloc) (s : Syntaxes σ) (b x : FileBuf σ) (n k : Nat) :
    Desk.calls A s ⟨⟨[x], 0⟩, k⟩ (churn b n) = ⟨⟨[x], 0⟩, k + n⟩ := by
  induction n generalizing k with
  | zero => rfl
  | succ n ih =>
    simp only [churn, List.replicate_succ, List.flatten_cons] at ih ⊢
    rw [desk_append]
    have : Desk.calls A s ⟨⟨[x], 0⟩, k⟩ [.add b, .close] = ⟨⟨[x], 0⟩, k + 1⟩ := rfl
    rw [this, ih]
    congr 1; omega

/-- C73: the bound is exact. Keep one buffer open, open and close others until `usize::MAX + 1` have been added, and add one more: the debug build has
panicked by then, and in the release build two open buffers have the same id. -/
theorem C73_ids_collide [Word] (A : Alloc) (fs : Fs) (path : Path) (s : Syntaxes σ) (w0 : Workspace σ) (h0 : Workspace.new fs path (some s) = some w0)
    (b : FileBuf σ) :
    wsCalls .checked A w0 (.add b :: churn b (2 ^ Word.bits - 1)) = .error .overflow ∧
    ∃ w, wsCalls .wrapping A w0 (.add b :: churn b (2 ^ Word.bits - 1) ++ [.add b]) = .ok w ∧ (contents w).map (·.id) = [some 0, some 0] := by
  have hW : W = 2 ^ Word.bits := rfl
  obtain ⟨n, hn⟩ : ∃ n, n + 1 = 2 ^ Word.bits - 1 := ⟨2 ^ Word.bits - 2, by have := W_eq; have := maxLen_pos; omega⟩
  have hch : ∀ rest : List (Workspace.Call σ), .add b :: churn b (n + 1) ++ rest = (.add b :: churn b n) ++ (.add b :: .close :: rest) := by
    intro rest
    have : churn b (n + 1) = churn b n ++ [.add b, .close] := by
      simp only [churn, List.replicate_succ', List.flatten_append]; rfl
    rw [this]; simp
  obtain ⟨hr0, hs⟩ := rel_new (A := A) h0
  obtain ⟨w1, e1, r1, _, hs1⟩ := hr0.calls (.add b :: churn b n)
  have hsum : ((.add b :: churn b n : List (Workspace.Call σ)).map adds).sum < 2 ^ Word.bits := by
    rw [List.map_cons, List.sum_cons, sum_churn, show adds (.add b : Workspace.Call σ) = 1 from rfl]; omega
  have hd1 : Desk.calls A w0.syntaxes nothing (.add b :: churn b n) = ⟨⟨[adopted s 0 b], 0⟩, n + 1⟩ := by
    rw [hs]
    have := desk_churn A s b (adopted s 0 b) n 1
    rw [Nat.add_comm] at this
    exact this
  rw [hd1] at r1
  have hid : w1.nextId + 1 = W := by
    have : w1.nextId = n + 1 := by cases r1 <;> assumption
    omega
  have hix := index_lt r1
  refine ⟨?_, ?_⟩
  · rw [← hn]
    have := hch []
    rw [List.append_nil] at this
    rw [this, wsCalls_append, C73_workspace .checked A fs path s w0 h0 _ hsum, e1]
    simp only [Except.ok_bind', wsCalls, wsCall, addBuffer_overflow b hid]
    rfl
  · rw [← hn, hch, wsCalls_append, C73_workspace .wrapping A fs path s w0 h0 _ hsum, e1]
    obtain ⟨w2, e2, r2, _, hs2⟩ := r1.add b
    have a2 : addBuffer .wrapping A w1 b = .ok { w2 with nextId := 0 } := by
      rw [addBuffer_wraps b hid (fun i hi => by obtain ⟨k1, k2⟩ := hix i hi; rw [k2] at k1; have : i < 1 := k1; omega), e2]; rfl
    have r2' : Workspace.Rel A { w2 with nextId := 0 } ⟨⟨[adopted s 0 b, adopted w1.syntaxes (n + 1) b], 1⟩, 0⟩ := by
      cases r2 with
      | empty h hb hi hc hn => exact .empty (by cases h) hb hi hc rfl
      | sel a c z h hs hb hi hc hn => exact .sel a c z h hs hb hi hc rfl
    obtain ⟨w3, e3, r3, _, hs3⟩ := r2'.close
    have r3' : Workspace.Rel A w3 ⟨⟨[adopted s 0 b], 0⟩, 0⟩ := r3
    have hix3 := index_lt r3'
    have hid3 : w3.nextId = 0 := by cases r3' <;> assumption
    obtain ⟨w4, e4, r4, _, _⟩ := r3'.add b
    have a4 : addBuffer .wrapping A w3 b = .ok w4 := by
      rw [addBuffer_eq b (by rw [hid3, hW]; omega) (fun i hi => by obtain ⟨k1, k2⟩ := hix3 i hi; rw [k2] at k1; have : i < 1 := k1; omega), e4]
    refine ⟨w4, ?_, ?_⟩
    · simp only [Except.ok_bind', wsCalls, wsCall, a2, pure, Except.pure, e3, a4]
    · rw [contents_eq r4]; rfl

section
attribute [local instance] word64

example : (([.add ⟨Buf.new Demo.tight 0, none, none, none⟩, .next, .close] : List (Workspace.Call Nat)).map adds).sum < 2 ^ Word.bits := by decide +kernel

end

end Scribe.Machine
