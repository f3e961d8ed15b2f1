import Verif.Spec.Errors
import Verif.Props.Session
import Verif.Props.Token
import Verif.Props.Cursor
import Verif.Demo
/-!
# Property C82: which error, and property C83: highlighting the current buffer
-/
namespace Scribe.Props
open Spec Workspace TokenIter GapBuffer

variable {σ : Type}

theorem readToString_plain (fs : FsE) (p : Path) : fs.plain.readToString p = (fs.readToString p).toOption := by
  simp only [Fs.readToString, FsE.plain, FsE.readToString]
  cases fs.read p with
  | error e => rfl
  | ok bs => simp only [Except.toOption, Option.bind_some]; cases strict bs <;> rfl

theorem writeAllE_plain (file : Nat) (rs : List WriteResE) (disk : Disk) (bs : Bytes) :
    writeAll file (rs.map WriteResE.plain) disk bs = ((writeAllE file rs disk bs).1, (writeAllE file rs disk bs).2.plain) := by
  induction rs generalizing disk bs with
  | nil => simp only [List.map_nil, writeAll, writeAllE]; split <;> rfl
  | cons r rs ih =>
    simp only [List.map_cons, writeAll, writeAllE]
    split
    · rfl
    · cases r with
      | failed e => rfl
      | interrupted => exact ih disk bs
      | wrote n =>
        cases n with
        | zero => rfl
        | succ n => simp only [WriteResE.plain, ih]

/-- **C82.** The functions that say which error they return do the same as those that do not (about which are the other properties). -/
theorem C82_same (S : Segmenter) (A : Alloc) (ε : Type) (k : Nat) (fs fs' fs'' : FsE) (p : Path) (b : FileBuf σ) (env : SaveEnvE) (disk : Disk)
    (w : Workspace σ) (syns : Option (Syntaxes σ)) :
    FileBuf.fromFile A k fs.plain fs'.plain p = (FileBuf.fromFileE A k fs fs' p : Except IoErr (FileBuf σ)).toOption ∧
    b.save env.plain disk = (b.saveE env disk).map (fun r => (r.1, r.2.1.plain, r.2.2)) ∧
    b.reload S A fs.plain = (b.reloadE (ε := ε) S A fs).map (fun r => (r.1.toOption.isSome, r.2)) ∧
    w.openBuffer A k fs.plain fs'.plain fs''.plain p = (w.openBufferE (ε := ε) A k fs fs' fs'' p).map (fun r => (r.1.toOption.isSome, r.2)) ∧
    w.updateCurrentSyntax = ((w.updateCurrentSyntaxE (ε := ε)).1.toOption.isSome, (w.updateCurrentSyntaxE (ε := ε)).2) ∧
    Workspace.new fs.plain p syns = (Workspace.newE (ε := ε) fs p syns).toOption := by
  have hff : ∀ (fs fs' : FsE), FileBuf.fromFile A k fs.plain fs'.plain p = (FileBuf.fromFileE A k fs fs' p : Except IoErr (FileBuf σ)).toOption := by
    intro fs fs'
    simp only [FileBuf.fromFile, FileBuf.fromFileE, readToString_plain]
    cases fs.readToString p with
    | error e => rfl
    | ok t =>
      simp only [Except.toOption, FsE.plain]
      cases hc : fs'.canon p with
      | error e => simp [bind, Except.bind]
      | ok c => simp [bind, Except.bind, pure, Except.pure]
  refine ⟨hff fs fs', ?_, ?_, ?_, ?_, ?_⟩
  · simp only [FileBuf.save, FileBuf.saveE, SaveEnvE.plain]
    cases hc : env.create with
    | none => cases b.path.getD [] <;> rfl
    | some c =>
      cases b.path.getD [] with
      | nil => rfl
      | cons x xs =>
        cases c with
        | error e => rfl
        | ok file =>
          simp only [Option.map_some, Except.toOption, writeAllE_plain]
          cases b.buf.data.toStr with
          | error e => rfl
          | ok t =>
            simp only [Except.ok_bind']
            cases (writeAllE file env.writes (fun f => if f = file then some [] else disk f) (enc t)).2 <;> rfl
  · simp only [FileBuf.reload, FileBuf.reloadE]
    cases b.path with
    | none => rfl
    | some q =>
      simp only [readToString_plain]
      cases fs.readToString q with
      | error e => rfl
      | ok c =>
        simp only [Except.toOption]
        cases Buf.reloadWith S A b.buf c <;> rfl
  · simp only [openBuffer, openBufferE]
    cases selectBufferByPath A w fs.plain p with
    | error e => rfl
    | ok r =>
      obtain ⟨found, w1⟩ := r
      simp only [Except.ok_bind']
      cases found with
      | true => rfl
      | false =>
        simp only [hff, Bool.false_eq_true, if_false]
        cases (FileBuf.fromFileE A k fs' fs'' p : Except IoErr (FileBuf σ)) with
        | error e => rfl
        | ok buffer =>
          simp only [Except.toOption]
          cases addBuffer A w1 buffer <;> rfl
  · simp only [updateCurrentSyntax, updateCurrentSyntaxE]
    cases w.current <;> rfl
  · simp only [Workspace.new, Workspace.newE, FsE.plain]
    cases syns with
    | none => rfl
    | some s =>
      cases fs.canon p <;> rfl

/-- C82: `reload` fails with `MissingPath` exactly for a buffer without path, with the error of reading exactly if reading fails (`InvalidData` for a
file that is not UTF-8), and with no other error; when it fails the buffer is unchanged. -/
theorem C82_reload (S : Segmenter) (A : Alloc) (ε : Type) (b b' : FileBuf σ) (fs : FsE) (r : Except (ErrKind ε) Unit)
    (h : b.reloadE S A fs = .ok (r, b')) :
    (r = .error .missingPath ↔ b.path = none) ∧
    (∀ e, r = .error (.io e) ↔ ∃ p, b.path = some p ∧ (fs.read p = .error e ∨ ∃ bs, fs.read p = .ok bs ∧ strict bs = none ∧ e = .invalidData)) ∧
    (∀ e, r = .error e → b' = b ∧ (e = .missingPath ∨ ∃ x, e = .io x)) := by
  unfold FileBuf.reloadE at h
  cases hp : b.path with
  | none =>
    rw [hp] at h
    cases h
    exact ⟨by simp, by simp, fun e he => by cases he; exact ⟨rfl, Or.inl rfl⟩⟩
  | some p =>
    rw [hp] at h
    simp only [FsE.readToString] at h
    cases hr : fs.read p with
    | error x =>
      rw [hr] at h
      cases h
      exact ⟨by simp, by simp [hr, eq_comm], fun e he => by cases he; exact ⟨rfl, Or.inr ⟨_, rfl⟩⟩⟩
    | ok bs =>
      rw [hr] at h
      cases hs : strict bs with
      | none =>
        simp only [hs] at h
        cases h
        exact ⟨by simp, by simp [hr, hs, eq_comm], fun e he => by cases he; exact ⟨rfl, Or.inr ⟨_, rfl⟩⟩⟩
      | some t =>
        simp only [hs] at h
        obtain ⟨x, _, hx⟩ := bind_ok h
        cases hx
        exact ⟨by simp, by simp [hr, hs], fun e he => by cases he⟩

/-- C82: `open_buffer` fails only with an I/O error: that of reading the file (`InvalidData` if it is not UTF-8), or, if that succeeds, that of finding its
canonical path; the workspace is unchanged then. It cannot fail if the path leads to an open buffer. -/
theorem C82_open (A : Alloc) (ε : Type) (s : Syntaxes σ) (cs : List (Call σ)) (w w' : Workspace σ) (h : Runs A s cs w) (clock : Nat)
    (f0 f1 f2 : FsE) (p : Path) (e : ErrKind ε) (he : w.openBufferE A clock f0 f1 f2 p = .ok (.error e, w')) :
    w' = w ∧ (∀ c, f0.canon p = .ok c → ∀ b ∈ contents w, b.path ≠ some c) ∧
      ∃ x, e = .io x ∧ (f1.read p = .error x ∨ (∃ bs, f1.read p = .ok bs ∧ strict bs = none ∧ x = .invalidData) ∨
        ∃ bs t, f1.read p = .ok bs ∧ strict bs = some t ∧ f2.canon p = .error x) := by
  have hsame := (C82_same (σ := σ) Demo.seg A ε clock f0 f1 f2 p (FileBuf.new A 0) ⟨none, []⟩ (fun _ => none) w none).2.2.2.1
  rw [he] at hsame
  have hw := (C42_failed_open A s cs w w' h clock _ _ _ p hsame).1
  refine ⟨hw, ?_, ?_⟩
  · intro c hc b hb hbp
    obtain ⟨h1, h2⟩ := h.rel
    obtain ⟨w'', e1, _⟩ := h1.openPath clock f0.plain f1.plain f2.plain p
    rw [hsame] at e1
    obtain ⟨hr, _⟩ := Prod.mk.inj (Except.ok.inj e1)
    simp only [Desk.call] at hr
    have hcan : f0.plain.canon p = some c := by simp [FsE.plain, hc, Except.toOption]
    rw [hcan, Option.bind_some] at hr
    rw [contents_eq h1] at hb
    cases hf : findPath (nothing.calls A s cs).tabs c with
    | some i => rw [hf] at hr; cases hr
    | none =>
      unfold findPath at hf
      split at hf
      · cases hf
      · rw [List.findIdx?_eq_none_iff] at hf
        have := hf b hb
        simp [hbp] at this
  · unfold openBufferE at he
    obtain ⟨⟨found, w1⟩, _, he⟩ := bind_ok he
    cases found with
    | true => cases he
    | false =>
      simp only [Bool.false_eq_true, if_false, FileBuf.fromFileE, FsE.readToString] at he
      cases hr : f1.read p with
      | error x => rw [hr] at he; cases he; exact ⟨x, rfl, Or.inl rfl⟩
      | ok bs =>
        rw [hr] at he
        cases hs : strict bs with
        | none => simp only [hs] at he; cases he; exact ⟨_, rfl, Or.inr (Or.inl ⟨bs, rfl, hs, rfl⟩)⟩
        | some t =>
          simp only [hs] at he
          cases hc : f2.canon p with
          | error x =>
            simp only [bind, Except.bind, hc] at he
            cases he
            exact ⟨x, rfl, Or.inr (Or.inr ⟨bs, t, rfl, hs, rfl⟩)⟩
          | ok c =>
            simp only [bind, Except.bind, hc, pure, Except.pure] at he
            cases ha : addBuffer A w1 ⟨Buf.fromContent A clock t, none, some c, none⟩ with
            | error x => rw [ha] at he; cases he
            | ok w2 => rw [ha] at he; cases he

/-- C82: the errors of `save`. Without a path it is `NotFound`, and nothing is touched; if the file cannot be created, that error, and nothing is
touched; otherwise one that a `write` gave, or `WriteZero` if one wrote nothing. -/
theorem C82_save (b b' : FileBuf σ) (env : SaveEnvE) (disk : Disk) (steps : List Disk) (e : IoErr) (h : b.saveE env disk = .ok (steps, .err e, b')) :
    b' = b ∧
    ((b.path.getD [] = [] ∧ e = .notFound ∧ steps = []) ∨
     (b.path.getD [] ≠ [] ∧ env.create = some (.error e) ∧ steps = []) ∨
     (b.path.getD [] ≠ [] ∧ (∃ file, env.create = some (.ok file)) ∧ steps ≠ [] ∧ (.failed e ∈ env.writes ∨ (e = .writeZero ∧ .wrote 0 ∈ env.writes)))) := by
  have key : ∀ (file : Nat) (rs : List WriteResE) (disk : Disk) (bs : Bytes) (e : IoErr), (writeAllE file rs disk bs).2 = .err e →
      .failed e ∈ rs ∨ (e = .writeZero ∧ .wrote 0 ∈ rs) := by
    intro file rs
    induction rs with
    | nil => intro disk bs e h; simp only [writeAllE] at h; split at h <;> cases h
    | cons r rs ih =>
      intro disk bs e h
      simp only [writeAllE] at h
      split at h
      · cases h
      · cases r with
        | failed x => cases h; simp
        | interrupted => rcases ih _ _ _ h with h | h <;> simp [h]
        | wrote n =>
          cases n with
          | zero => cases h; simp
          | succ n => rcases ih _ _ _ h with h | h <;> simp [h]
  unfold FileBuf.saveE at h
  cases hc : env.create with
  | none => rw [hc] at h; cases hp : b.path.getD [] <;> rw [hp] at h <;> cases h
  | some c =>
    rw [hc] at h
    cases hp : b.path.getD [] with
    | nil => rw [hp] at h; cases h; exact ⟨rfl, Or.inl ⟨rfl, rfl, rfl⟩⟩
    | cons x xs =>
      rw [hp] at h
      cases c with
      | error y => cases h; exact ⟨rfl, Or.inr (Or.inl ⟨by simp, rfl, rfl⟩)⟩
      | ok file =>
        obtain ⟨t, _, h⟩ := bind_ok h
        have hk := key file env.writes (fun f => if f = file then some [] else disk f) (enc t)
        dsimp only at h
        generalize writeAllE file env.writes (fun f => if f = file then some [] else disk f) (enc t) = r at h hk
        obtain ⟨r1, r2⟩ := r
        cases r2 with
        | ok => cases h
        | crash => cases h
        | err y =>
          cases h
          exact ⟨rfl, Or.inr (Or.inr ⟨by simp, ⟨file, rfl⟩, by simp, hk _ rfl⟩)⟩

theorem writeAllE_stop (file : Nat) (rs : List WriteResE) : ∀ (disk : Disk) (bs old : Bytes), disk file = some old →
    (∀ e, (writeAllE file rs disk bs).2 = .err e → ∃ ws r rest, rs = ws ++ r :: rest ∧ (∀ w ∈ ws, w.plain.Good) ∧
      (ws.map fun w => w.plain.bytes).sum < bs.length ∧ (r = .failed e ∨ (r = .wrote 0 ∧ e = .writeZero)) ∧
      ∀ f, ((writeAllE file rs disk bs).1.getLast?.getD disk) f =
        if f = file then some (old ++ bs.take (ws.map fun w => w.plain.bytes).sum) else disk f) ∧
    ((writeAllE file rs disk bs).2 = .crash → (∀ w ∈ rs, w.plain.Good) ∧ (rs.map fun w => w.plain.bytes).sum < bs.length ∧
      ∀ f, ((writeAllE file rs disk bs).1.getLast?.getD disk) f =
        if f = file then some (old ++ bs.take (rs.map fun w => w.plain.bytes).sum) else disk f) := by
  have same : ∀ (disk : Disk) (old : Bytes) f, disk file = some old → disk f = if f = file then some (old ++ []) else disk f := by
    intro disk old f h
    by_cases hf : f = file
    · rw [if_pos hf, hf, h, List.append_nil]
    · rw [if_neg hf]
  induction rs with
  | nil =>
    intro disk bs old hd
    unfold writeAllE
    by_cases hb : bs.isEmpty
    · simp [hb]
    · simp only [if_neg hb]
      refine ⟨fun e h => (by cases h), fun _ => ⟨by simp, ?_, fun f => ?_⟩⟩
      · rw [List.isEmpty_iff] at hb; exact List.length_pos_iff.mpr hb
      · exact (same disk old f hd :)
  | cons r rs ih =>
    intro disk bs old hd
    unfold writeAllE
    by_cases hb : bs.isEmpty
    · simp [hb]
    · simp only [if_neg hb]
      have hpos : 0 < bs.length := by
        rw [List.isEmpty_iff] at hb; exact List.length_pos_iff.mpr hb
      cases r with
      | failed x =>
        refine ⟨fun e h => ?_, fun h => (by cases h)⟩
        cases h
        exact ⟨[], _, rs, rfl, by simp, hpos, Or.inl rfl, fun f => (same disk old f hd :)⟩
      | interrupted =>
        obtain ⟨h1, h2⟩ := ih disk bs old hd
        constructor
        · intro e h
          obtain ⟨ws, r, rest, rfl, k2, k3, k4, k5⟩ := h1 e h
          refine ⟨.interrupted :: ws, r, rest, rfl, ?_, ?_, k4, ?_⟩
          · simpa [WriteResE.plain, WriteRes.Good] using k2
          · simpa [WriteResE.plain, WriteRes.bytes] using k3
          · simpa [WriteResE.plain, WriteRes.bytes] using k5
        · intro h
          obtain ⟨k2, k3, k5⟩ := h2 h
          refine ⟨?_, ?_, ?_⟩
          · simpa [WriteResE.plain, WriteRes.Good] using k2
          · simpa [WriteResE.plain, WriteRes.bytes] using k3
          · simpa [WriteResE.plain, WriteRes.bytes] using k5
      | wrote n =>
        cases n with
        | zero =>
          refine ⟨fun e h => ?_, fun h => (by cases h)⟩
          cases h
          exact ⟨[], _, rs, rfl, by simp, hpos, Or.inr ⟨rfl, rfl⟩, fun f => (same disk old f hd :)⟩
        | succ n =>
          dsimp only
          have hd' : (fun f => if f = file then some ((disk file).getD [] ++ bs.take (n + 1)) else disk f : Disk) file = some (old ++ bs.take (n + 1)) := by
            simp [hd]
          have hother : ∀ f, f ≠ file → (fun f => if f = file then some ((disk file).getD [] ++ bs.take (n + 1)) else disk f : Disk) f = disk f :=
            fun f hf => if_neg hf
          generalize (fun f => if f = file then some ((disk file).getD [] ++ bs.take (n + 1)) else disk f : Disk) = disk' at hd' hother
          obtain ⟨h1, h2⟩ := ih disk' (bs.drop (n + 1)) _ hd'
          generalize writeAllE file rs disk' (bs.drop (n + 1)) = w at h1 h2 ⊢
          have last : ∀ f, ((disk' :: w.1).getLast?.getD disk) f = (w.1.getLast?.getD disk') f := by
            intro f; rw [List.getLast?_cons]; rfl
          have end_ : ∀ m f, (w.1.getLast?.getD disk') f = (if f = file then some (old ++ bs.take (n + 1) ++ (bs.drop (n + 1)).take m) else disk' f) →
              ((disk' :: w.1).getLast?.getD disk) f = if f = file then some (old ++ bs.take (n + 1 + m)) else disk f := by
            intro m f h
            rw [last, h]
            by_cases hf : f = file
            · rw [if_pos hf, if_pos hf, List.append_assoc, List.take_add (i := n + 1) (j := m)]
            · rw [if_neg hf, if_neg hf, hother f hf]
          constructor
          · intro e h
            obtain ⟨ws, r, rest, rfl, k2, k3, k4, k5⟩ := h1 e h
            refine ⟨.wrote (n + 1) :: ws, r, rest, rfl, ?_, ?_, k4, ?_⟩
            · simpa [WriteResE.plain, WriteRes.Good] using k2
            · rw [List.length_drop] at k3
              simp only [List.map_cons, List.sum_cons, WriteResE.plain, WriteRes.bytes] at k3 ⊢
              omega
            · intro f
              simp only [List.map_cons, List.sum_cons]
              exact end_ _ f (k5 f)
          · intro h
            obtain ⟨k2, k3, k5⟩ := h2 h
            refine ⟨?_, ?_, ?_⟩
            · simpa [WriteResE.plain, WriteRes.Good] using k2
            · rw [List.length_drop] at k3
              simp only [List.map_cons, List.sum_cons, WriteResE.plain, WriteRes.bytes] at k3 ⊢
              omega
            · intro f
              simp only [List.map_cons, List.sum_cons]
              exact end_ _ f (k5 f)

/-- C82: which error a failed `write` gives, and what it leaves. The error is that of the first `write` that failed (`WriteZero` if it wrote nothing instead),
provided the calls before it did not write everything; the file then holds exactly the bytes they wrote, and all other files are as before. -/
theorem C82_save_error (b b' : FileBuf σ) (t : Text) (ht : b.buf.data.toStr = .ok t) (env : SaveEnvE) (disk : Disk) (file : Nat) (hp : b.path.getD [] ≠ [])
    (hc : env.create = some (.ok file)) (steps : List Disk) (e : IoErr) (h : b.saveE env disk = .ok (steps, .err e, b')) :
    ∃ ws r rest last, env.writes = ws ++ r :: rest ∧ (∀ w ∈ ws, w.plain.Good) ∧ (ws.map fun w => w.plain.bytes).sum < blen t ∧
      (r = .failed e ∨ (r = .wrote 0 ∧ e = .writeZero)) ∧ steps.getLast? = some last ∧
      last file = some ((enc t).take (ws.map fun w => w.plain.bytes).sum) ∧ ∀ f, f ≠ file → last f = disk f := by
  unfold FileBuf.saveE at h
  rw [hc] at h
  cases hp' : b.path.getD [] with
  | nil => exact absurd hp' hp
  | cons x xs =>
    rw [hp'] at h
    simp only [ht, Except.ok_bind'] at h
    obtain ⟨k1, -⟩ := writeAllE_stop file env.writes (fun f => if f = file then some [] else disk f) (enc t) [] (by simp)
    generalize writeAllE file env.writes (fun f => if f = file then some [] else disk f) (enc t) = w at h k1
    obtain ⟨w1, w2⟩ := w
    cases w2 with
    | ok => cases h
    | crash => cases h
    | err y =>
      cases h
      obtain ⟨ws, r, rest, h1, h2, h3, h4, h5⟩ := k1 e rfl
      rw [length_enc] at h3
      refine ⟨ws, r, rest, _, h1, h2, h3, h4, List.getLast?_cons, ?_, fun f hf => ?_⟩
      · rw [h5 file, if_pos rfl, List.nil_append]
      · rw [h5 f, if_neg hf, if_neg hf]

/-- C82: what a save leaves that the machine did not survive: the bytes of the `write` calls that were made, none of which failed. -/
theorem C82_save_crash (b b' : FileBuf σ) (t : Text) (ht : b.buf.data.toStr = .ok t) (env : SaveEnvE) (disk : Disk) (file : Nat) (hp : b.path.getD [] ≠ [])
    (hc : env.create = some (.ok file)) (steps : List Disk) (h : b.saveE env disk = .ok (steps, .crash, b')) :
    ∃ last, (∀ w ∈ env.writes, w.plain.Good) ∧ (env.writes.map fun w => w.plain.bytes).sum < blen t ∧ steps.getLast? = some last ∧
      last file = some ((enc t).take (env.writes.map fun w => w.plain.bytes).sum) ∧ ∀ f, f ≠ file → last f = disk f := by
  unfold FileBuf.saveE at h
  rw [hc] at h
  cases hp' : b.path.getD [] with
  | nil => exact absurd hp' hp
  | cons x xs =>
    rw [hp'] at h
    simp only [ht, Except.ok_bind'] at h
    obtain ⟨-, k1⟩ := writeAllE_stop file env.writes (fun f => if f = file then some [] else disk f) (enc t) [] (by simp)
    generalize writeAllE file env.writes (fun f => if f = file then some [] else disk f) (enc t) = w at h k1
    obtain ⟨w1, w2⟩ := w
    cases w2 with
    | ok => cases h
    | err y => cases h
    | crash =>
      cases h
      obtain ⟨h2, h3, h5⟩ := k1 rfl
      rw [length_enc] at h3
      refine ⟨_, h2, h3, List.getLast?_cons, ?_, fun f hf => ?_⟩
      · rw [h5 file, if_pos rfl, List.nil_append]
      · rw [h5 f, if_neg hf, if_neg hf]

/-- C82: `Workspace::new` reports a folder of syntaxes that cannot be loaded before a path that does not exist. -/
theorem C82_new (ε : Type) (fs : FsE) (p : Path) (syns : Option (Syntaxes σ)) (e : ErrKind ε) :
    Workspace.newE fs p syns = .error e ↔ (syns = none ∧ e = .syntaxLoading) ∨ (syns ≠ none ∧ ∃ x, fs.canon p = .error x ∧ e = .io x) := by
  unfold Workspace.newE
  cases syns with
  | none => simp [eq_comm]
  | some s => cases fs.canon p <;> simp [eq_comm]

/-- C82: nothing ever reports `MissingScope`. -/
theorem C82_no_missing_scope (S : Segmenter) (A : Alloc) (ε : Type) (H : σ → Highlighter) (k : Nat) (fs fs' fs'' : FsE) (p : Path) (b b' : FileBuf σ)
    (w w' : Workspace σ) (syns : Option (Syntaxes σ)) :
    b.reloadE (ε := ε) S A fs ≠ .ok (.error .missingScope, b') ∧
    w.openBufferE (ε := ε) A k fs fs' fs'' p ≠ .ok (.error .missingScope, w') ∧
    (w.updateCurrentSyntaxE (ε := ε)).1 ≠ .error .missingScope ∧
    Workspace.newE (ε := ε) fs p syns ≠ .error .missingScope ∧
    w.currentBufferIter H ≠ .ok (.error .missingScope) := by
  refine ⟨?_, ?_, ?_, ?_, ?_⟩
  · intro h
    rcases ((C82_reload S A ε b b' fs _ h).2.2 _ rfl).2 with h | ⟨x, h⟩ <;> cases h
  · intro h
    unfold openBufferE at h
    obtain ⟨⟨found, w1⟩, _, h⟩ := bind_ok h
    cases found with
    | true => cases h
    | false =>
      simp only [Bool.false_eq_true, if_false] at h
      split at h
      · cases h
      · obtain ⟨x, _, h⟩ := bind_ok h
        cases h
  · intro h
    unfold updateCurrentSyntaxE at h
    cases hc : w.current <;> rw [hc] at h <;> cases h
  · intro h
    rcases (C82_new ε fs p syns _).mp h with ⟨_, h⟩ | ⟨_, x, _, h⟩ <;> cases h
  · intro h
    unfold currentBufferIter at h
    cases hc : w.current with
    | none => rw [hc] at h; cases h
    | some b =>
      rw [hc] at h
      obtain ⟨t, _, h⟩ := bind_ok h
      cases hy : b.syn with
      | none => rw [hy] at h; cases h
      | some y =>
        rw [hy] at h
        obtain ⟨r, _, h⟩ := bind_ok h
        cases r <;> cases h

/-! ### Examples -/

/-- `/w/a` is a text, `/w/x` is not UTF-8, `/w/d` cannot be read, `/w/r` can be read but not canonicalized; nothing else exists. -/
def demoFsE : FsE where
  read p :=
    if p = demoPath [0x61] ∨ p = demoPath [0x72] then .ok [0x61]
    else if p = demoPath [0x78] then .ok [0xff]
    else if p = demoPath [0x64] then .error (.os 13)
    else .error .notFound
  canon p := if p = demoPath [0x72] then .error (.os 40) else if p = demoPath [0x71] then .error .notFound else .ok p

/-- Kinds of errors of `open_buffer` in an empty workspace. -/
def openError (p : Path) : Option (ErrKind Empty) :=
  match (⟨demoPath [], [], 0, none, none, demoSyn⟩ : Workspace Nat).openBufferE (ε := Empty) Demo.tight 0 demoFsE demoFsE demoFsE p with
  | .ok (.error e, _) => some e
  | _ => none

/-- A text opens; bytes that are not UTF-8, a forbidden file, a file that goes away, one that is not there. -/
example : [openError (demoPath [0x61]), openError (demoPath [0x78]), openError (demoPath [0x64]), openError (demoPath [0x72]), openError (demoPath [0x71])] =
    [none, some (.io .invalidData), some (.io (.os 13)), some (.io (.os 40)), some (.io .notFound)] := by decide +kernel

/-- Kinds of errors of `reload`. -/
def reloadError (p : Option Path) : Option (ErrKind Empty) :=
  match (⟨Buf.fromContent Demo.tight 0 (Demo.s "z"), none, p, none⟩ : FileBuf Nat).reloadE (ε := Empty) Demo.seg Demo.tight demoFsE with
  | .ok (.error e, _) => some e
  | _ => none

/-- `reload`: success; not UTF-8; no path. -/
example : [reloadError (some (demoPath [0x61])), reloadError (some (demoPath [0x78])), reloadError none] = [none, some (.io .invalidData), some .missingPath] := by
  decide +kernel

/-- How `save` ends, and how many steps it took. -/
def saveEnd (p : Option Path) (env : SaveEnvE) : Option (EndingE × Nat) :=
  match (⟨Buf.fromContent Demo.tight 0 (Demo.s "abc"), none, p, none⟩ : FileBuf Nat).saveE env (fun _ => none) with
  | .ok (ds, e, _) => some (e, ds.length)
  | _ => none

/-- `save`: success in two writes; no path; no permission; the disk is full after a byte; a write of nothing. -/
example : [saveEnd (some (demoPath [0x61])) ⟨some (.ok 0), [.wrote 1, .interrupted, .wrote 2]⟩, saveEnd none ⟨some (.ok 0), []⟩,
      saveEnd (some (demoPath [0x61])) ⟨some (.error (.os 13)), []⟩, saveEnd (some (demoPath [0x61])) ⟨some (.ok 0), [.wrote 1, .failed (.os 28)]⟩,
      saveEnd (some (demoPath [0x61])) ⟨some (.ok 0), [.wrote 0]⟩] =
    [some (.ok, 3), some (.err .notFound, 0), some (.err (.os 13), 0), some (.err (.os 28), 2), some (.err .writeZero, 1)] := by decide +kernel

/-- What the file holds after a save that failed at the third `write`: what the first two wrote, and nothing of the fourth. -/
example : (match (⟨Buf.fromContent Demo.tight 0 (Demo.s "abc"), none, some (demoPath [0x61]), none⟩ : FileBuf Nat).saveE
      ⟨some (.ok 0), [.wrote 1, .interrupted, .wrote 1, .failed (.os 28), .wrote 1]⟩ (fun _ => some (enc (Demo.s "old"))) with
    | .ok (ds, e, _) => some (e, ds.map (fun d => d 0), ds.map (fun d => d 1))
    | _ => none) = some (.err (.os 28), [some [], some [97], some [97, 98]], [some [111, 108, 100], some [111, 108, 100], some [111, 108, 100]]) := by
  decide +kernel

/-- Both go wrong: the folder of syntaxes is reported. -/
example : (match (Workspace.newE (ε := Empty) demoFsE (demoPath [0x71]) (none : Option (Syntaxes Nat))) with | .error e => some e | .ok _ => none) = some .syntaxLoading ∧
    (match (Workspace.newE (ε := Empty) demoFsE (demoPath [0x71]) (some demoSyn)) with | .error e => some e | .ok _ => none) = some (.io .notFound) := by
  decide +kernel

end Scribe.Props
