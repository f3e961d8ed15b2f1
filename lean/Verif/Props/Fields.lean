import Verif.Props.Workspace
import Verif.Proofs.Fields
/-!
# Property C76: programs that assign to the public fields of a workspace
-/
namespace Scribe.Props
open Spec Workspace
variable {σ : Type}

theorem relative_eq (w : Workspace σ) (b : FileBuf σ) : w.relative b = b.path.map (shownPath w.path) := by
  obtain ⟨k1, k2, k3⟩ := C43_relative w b
  unfold shownPath
  cases hx : b.path with
  | none => exact k1 hx
  | some p =>
    by_cases hp : w.path <+: p
    · obtain ⟨q, rfl⟩ := hp
      rw [k2 q hx, Option.map_some, if_pos ⟨q, rfl⟩, List.drop_left]
    · rw [k3 p hx (fun q hq => hp ⟨q, hq.symm⟩), Option.map_some, if_neg hp]

theorem on_new {A : Alloc} {fs : Fs} {path : Path} {s : Syntaxes σ} {w : Workspace σ} (h : Workspace.new fs path (some s) = some w) :
    On A w (Bench.new w.path s) := by
  obtain ⟨h1, h2⟩ := rel_new (A := A) h
  exact .normal h1 rfl rfl rfl h2

/-- **C76.** Whatever a program does with a workspace, including any assignment to `current_buffer`, `path` and `syntax_set`: if the specification says so it panics,
and otherwise it sees the list of buffers the specification says. -/
theorem C76_fields (A : Alloc) (s : Syntaxes σ) (fs : Fs) (path : Path) (w0 : Workspace σ) (h0 : Workspace.new fs path (some s) = some w0) (cs : List (Step σ)) :
    match (Bench.new w0.path s).steps A cs with
    | none => w0.steps A cs = .error .unwrap
    | some (rs, b) => ∃ w, w0.steps A cs = .ok (rs, w) ∧ w.current = b.current ∧
        w.currentBufferIndex = (if b.desk.tabs.items.isEmpty then none else some b.desk.tabs.sel) ∧
        contents w = b.desk.tabs.items ∧ w.path = b.path ∧
        w.currentBufferPath = (b.current.bind (·.path)).map (shownPath b.path) ∧
        w.bufferPaths = b.desk.tabs.items.map fun x => x.path.map (shownPath b.path) := by
  have h := (on_new (A := A) h0).steps cs
  cases hb : (Bench.new w0.path s).steps A cs with
  | none => rw [hb] at h; exact h
  | some x =>
    obtain ⟨rs, b⟩ := x
    rw [hb] at h
    obtain ⟨w, e1, e2⟩ := h
    have hpath : w.path = b.path := by cases e2 <;> assumption
    refine ⟨w, e1, current_eq e2, index_eq e2, ?_, hpath, ?_, ?_⟩
    · cases e2 with
      | normal h => exact contents_eq h
      | out w' h hc hw =>
        have := contents_eq h
        obtain ⟨i, k1, k2, k3, _⟩ := rel_place h hc
        rw [← this]
        unfold contents
        rw [hw]
        simp only [k1, hc]
        apply List.ext_getElem?
        intro j
        rw [List.getElem?_set]
        split
        · rename_i e; subst e; rw [k2]
        · rfl
      | stray x hi hb hn hc => unfold contents; rw [hn, hb, hi]
    · unfold currentBufferPath
      rw [current_eq e2]
      cases b.current with
      | none => rfl
      | some y => rw [Option.bind_some, Option.bind_some, relative_eq, hpath]
    · have hrel : ∀ w' : Workspace σ, w'.path = w.path → (fun x => w'.relative x) = fun x => x.path.map (shownPath b.path) := by
        intro w' hw'; funext x; rw [relative_eq, hw', hpath]
      cases e2 with
      | normal h => rw [bufferPaths_rel h]; exact congrArg (fun f => List.map f _) (hrel w rfl)
      | out w' h hc hw =>
        have e3 : w.bufferPaths = w'.bufferPaths := by
          rw [hw]
          unfold bufferPaths currentBufferPath
          rw [hc]
          rfl
        rw [e3, bufferPaths_rel h]
        exact congrArg (fun f => List.map f _) (hrel w' (by rw [hw]))
      | stray x hi hb hn hc => unfold bufferPaths; rw [hb, hi]; rfl

/-- C76: taking the current buffer out loses its place. When the program goes on to the next buffer and back, there is an empty buffer without path, id and syntax
in that place. -/
theorem C76_taken (A : Alloc) (s : Syntaxes σ) (fs : Fs) (path : Path) (w0 : Workspace σ) (h0 : Workspace.new fs path (some s) = some w0) (cs : List (Step σ))
    (rs : List Bool) (w : Workspace σ) (h : w0.steps A cs = .ok (rs, w)) (i : Nat) (hi : w.currentBufferIndex = some i) :
    ∃ w', w.steps A [.put none, .call .next, .call .previous] = .ok ([true, true, true], w') ∧ w'.currentBufferIndex = some i ∧
      w'.current = some (FileBuf.new A 0) ∧ contents w' = (contents w).set i (FileBuf.new A 0) := by
  have hh := (on_new (A := A) h0).steps cs
  have full := C76_fields A s fs path w0 h0 cs
  have full' := C76_fields A s fs path w0 h0 (cs ++ [.put none, .call .next, .call .previous])
  have happ : ∀ (w : Workspace σ) (cs ds : List (Step σ)), w.steps A (cs ++ ds) =
      (do let (rs, w) ← w.steps A cs; let (rs', w) ← w.steps A ds; return (rs ++ rs', w)) := by
    intro w cs
    induction cs generalizing w with
    | nil =>
      intro ds
      simp only [List.nil_append, Workspace.steps, Except.ok_bind']
      cases w.steps A ds <;> rfl
    | cons c cs ih =>
      intro ds
      simp only [List.cons_append, Workspace.steps]
      cases w.step A c with
      | error e => rfl
      | ok x =>
        simp only [Except.ok_bind', ih]
        cases x.2.steps A cs with
        | error e => rfl
        | ok y =>
          simp only [Except.ok_bind']
          cases hz : y.2.steps A ds with
          | error e => simp only [pure, Except.pure, Except.ok_bind', hz]; rfl
          | ok z => simp only [pure, Except.pure, Except.ok_bind', hz]; rfl
  have hbapp : ∀ (b : Bench σ) (cs ds : List (Step σ)), b.steps A (cs ++ ds) =
      (b.steps A cs).bind fun x => (x.2.steps A ds).map fun y => (x.1 ++ y.1, y.2) := by
    intro b cs
    induction cs generalizing b with
    | nil => intro ds; simp [Bench.steps]
    | cons c cs ih =>
      intro ds
      simp only [List.cons_append, Bench.steps]
      cases b.step A c with
      | none => rfl
      | some x =>
        simp only [ih]
        cases x.2.steps A cs with
        | none => rfl
        | some y =>
          simp only [Option.bind_some]
          cases y.2.steps A ds <;> rfl
  rw [hbapp] at full'
  cases hb : (Bench.new w0.path s).steps A cs with
  | none => rw [hb] at hh; rw [h] at hh; cases hh
  | some x =>
    obtain ⟨rs', b⟩ := x
    rw [hb] at hh full full'
    obtain ⟨w1, e1, e2⟩ := hh
    rw [h] at e1
    cases e1
    obtain ⟨w2, g1, g2, g3, g4, _⟩ := full
    rw [h] at g1
    cases g1
    rw [hi] at g3
    have hne : b.desk.tabs.items.isEmpty = false := by
      cases hx : b.desk.tabs.items.isEmpty with
      | false => rfl
      | true => rw [hx] at g3; cases g3
    rw [hne] at g3
    have hsel : b.desk.tabs.sel = i := by simpa using g3.symm
    have hst : b.stray = none := by
      cases e2 with
      | normal _ _ hs => exact hs
      | out _ _ _ _ _ hs => exact hs
      | stray x hi' => rw [hi'] at hne; cases hne
    have hlt : i < b.desk.tabs.items.length := by
      cases e2 with
      | normal h => rw [← hsel]; exact sel_lt h (by intro hn; rw [hn] at hne; cases hne)
      | out w' h => rw [← hsel]; exact sel_lt h (by intro hn; rw [hn] at hne; cases hne)
      | stray x hi' => rw [hi'] at hne; cases hne
    have hmod : b.desk.tabs.items.modify i (fun _ => FileBuf.new A 0) = b.desk.tabs.items.set i (FileBuf.new A 0) := by
      rw [List.modify_eq_set_getElem?, List.getElem?_eq_getElem hlt]; rfl
    have hrun : b.steps A [.put none, .call .next, .call .previous] =
        some ([true, true, true], { b with desk := ⟨⟨b.desk.tabs.items.set i (FileBuf.new A 0), i⟩, b.desk.nextId⟩, out := false }) := by
      have hlen : (b.desk.tabs.items.set i (FileBuf.new A 0)).length = b.desk.tabs.items.length := by simp
      have harith : ((i + 1) % b.desk.tabs.items.length + b.desk.tabs.items.length - 1) % b.desk.tabs.items.length = i := by
        by_cases hl : i + 1 = b.desk.tabs.items.length
        · rw [hl, Nat.mod_self, Nat.zero_add, Nat.mod_eq_of_lt (by omega)]; omega
        · rw [Nat.mod_eq_of_lt (by omega : i + 1 < _), show i + 1 + b.desk.tabs.items.length - 1 = i + b.desk.tabs.items.length by omega,
            Nat.add_mod_right, Nat.mod_eq_of_lt hlt]
      simp only [Bench.steps, Bench.step, hne, Bool.false_eq_true, if_false, hst, if_true, Bench.outCall, Desk.call, Tabs.edit, Tabs.next, Tabs.previous, hsel, hmod,
        hlen, harith, Bool.not_true]
    rw [Option.bind_some, hrun] at full'
    obtain ⟨w3, f1, f2, f3, f4, _⟩ := full'
    rw [happ, h] at f1
    simp only [Except.ok_bind'] at f1
    cases hx : w.steps A [.put none, .call .next, .call .previous] with
    | error e => rw [hx] at f1; cases f1
    | ok y =>
      obtain ⟨r3, w4⟩ := y
      rw [hx] at f1
      have f1' := Except.ok.inj f1
      simp only [Prod.mk.injEq, List.append_cancel_left_eq] at f1'
      obtain ⟨rfl, rfl⟩ := f1'
      refine ⟨w4, rfl, ?_, ?_, ?_⟩
      · rw [f3, if_neg (by simpa using fun hn => by rw [hn] at hlt; simp at hlt)]
      · rw [f2]
        simp only [Bench.current, hst, Tabs.selected, Bool.false_eq_true, if_false]
        simp [hlt]
      · rw [f4, g4]

/-- C76: a buffer put into an empty workspace is not in its list, and from then on adding a buffer panics (opening a file that can be read does so too). -/
theorem C76_stray_panics (A : Alloc) (s : Syntaxes σ) (fs : Fs) (path : Path) (w0 : Workspace σ) (h0 : Workspace.new fs path (some s) = some w0) (cs : List (Step σ))
    (rs : List Bool) (w : Workspace σ) (h : w0.steps A cs = .ok (rs, w)) (hi : w.currentBufferIndex = none) (x y : FileBuf σ) :
    w.steps A [.put (some x), .call (.add y)] = .error .unwrap := by
  have hh := (on_new (A := A) h0).steps cs
  cases hb : (Bench.new w0.path s).steps A cs with
  | none => rw [hb] at hh; rw [h] at hh; cases hh
  | some z =>
    obtain ⟨rs', b⟩ := z
    rw [hb] at hh
    obtain ⟨w1, e1, e2⟩ := hh
    rw [h] at e1
    cases e1
    have hne : b.desk.tabs.items.isEmpty = true := by
      have := index_eq e2
      unfold currentBufferIndex at hi
      rw [hi] at this
      cases hx : b.desk.tabs.items.isEmpty with
      | true => rfl
      | false => rw [hx] at this; cases this
    have := e2.steps [.put (some x), .call (.add y)]
    simpa only [Bench.steps, Bench.step, hne, if_true, Bench.strayCall] using this

/-- C76: a program that never puts a buffer into the field (but may take buffers out, and replace path and syntax set) never panics. -/
theorem C76_taking_is_safe (A : Alloc) (s : Syntaxes σ) (fs : Fs) (path : Path) (w0 : Workspace σ) (h0 : Workspace.new fs path (some s) = some w0) (cs : List (Step σ))
    (hcs : ∀ c ∈ cs, ∀ x, c ≠ .put (some x)) : ∃ rs w, w0.steps A cs = .ok (rs, w) := by
  have hh := (on_new (A := A) h0).steps cs
  have key : ∀ b : Bench σ, b.stray = none → ∃ x, b.steps A cs = some x := by
    clear hh
    induction cs with
    | nil => exact fun b _ => ⟨_, rfl⟩
    | cons c cs ih =>
      intro b hb
      obtain ⟨r, b', h1, h2⟩ : ∃ r b', b.step A c = some (r, b') ∧ b'.stray = none := by
        cases c with
        | setPath p => exact ⟨_, _, rfl, hb⟩
        | setSyntaxes s => exact ⟨_, _, rfl, hb⟩
        | put o =>
          cases o with
          | some x => exact absurd rfl (hcs _ (List.mem_cons_self ..) x)
          | none =>
            simp only [Bench.step]
            split
            · exact ⟨_, _, rfl, rfl⟩
            · exact ⟨_, _, rfl, hb⟩
        | call c =>
          simp only [Bench.step, hb]
          split
          · refine ⟨_, _, rfl, ?_⟩
            cases c <;> exact hb
          · exact ⟨_, _, rfl, rfl⟩
      obtain ⟨x, hx⟩ := ih (fun c hc => hcs c (List.mem_cons_of_mem _ hc)) b' h2
      exact ⟨_, by rw [Bench.steps, h1]; simp only [hx]; rfl⟩
  obtain ⟨x, hx⟩ := key (Bench.new w0.path s) rfl
  rw [hx] at hh
  obtain ⟨w, hw, _⟩ := hh
  exact ⟨_, w, hw⟩

/-- Two files are open, the second is taken out: opening a third puts it after the empty place; going back shows an empty buffer there. -/
example : (Workspace.new demoFs [.root, .normal [0x77]] (some demoSyn)).bind (fun w => (w.steps Demo.tight
    [.call (demoOpen (demoPath [0x61, 46, 0x72])), .call (demoOpen (demoPath [0x62])), .put none, .call (demoOpen [.root, .normal [0x63]]), .call .previous,
     .setPath [.root]]).toOption.map fun r => (look r.2, r.2.current.map (·.path))) =
    some (⟨some 1, [some 0, none, some 2], [some [.normal [0x77], .normal [0x61, 46, 0x72]], none, some [.normal [0x63]]], [some 1, none, some 0]⟩, some none) := by
  decide +kernel

/-- A buffer put into an empty workspace can be edited and closed, but nothing can be added. -/
example : (Workspace.new demoFs [.root, .normal [0x77]] (some demoSyn)).map (fun w =>
    ((w.steps Demo.tight [.put (some (FileBuf.new Demo.tight 0)), .call .next, .call .updateSyntax, .call .close, .call (demoOpen (demoPath [0x62]))]).toOption.map (·.1),
     (w.steps Demo.tight [.put (some (FileBuf.new Demo.tight 0)), .call (demoOpen (demoPath [0x7a])), .call (demoOpen (demoPath [0x62]))]).toOption.map (·.1))) =
    some (some [true, true, true, true, true], none) := by
  decide +kernel

end Scribe.Props
