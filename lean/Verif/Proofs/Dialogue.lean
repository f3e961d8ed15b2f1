import Verif.Spec.Dialogue
import Verif.Proofs.Desktop
import Verif.Props.Search
/-! # The dialogue of a program refines that with documents and files -/
namespace Scribe
open Spec Props
variable {σ : Type} {S : Segmenter} {A : Alloc} {W : FileTree}

/-! ## Search -/

theorem startsWith_eq (needle hay : Text) : startsWith needle hay = .ok (needle.isPrefixOf hay) := by
  have e : (needle.isPrefixOf hay) = decide (needle <+: hay) := by
    rw [Bool.eq_iff_iff, List.isPrefixOf_iff_prefix, decide_eq_true_iff]
  rw [e]
  unfold startsWith
  by_cases hb : blen hay ≥ blen needle
  · obtain ⟨x, h1, h2⟩ := slice_prefix hb
    rw [if_pos hb, h1]
    simp only [Except.ok_bind']
    exact congrArg Except.ok (decide_eq_decide.mpr h2)
  · rw [if_neg hb]
    congr 1
    symm
    rw [decide_eq_false_iff_not]
    rintro ⟨y, hy⟩
    apply hb
    rw [← hy, blen_append]; omega

theorem searchLine_found (needle x rest : Text) (number : Nat) : searchLine needle (x ++ rest) number (charIndices (blen x) rest) =
    .ok (((List.range rest.length).filter fun n => needle.isPrefixOf (rest.drop n)).map fun n => ⟨number, blen x + blen (rest.take n)⟩) := by
  induction rest generalizing x with
  | nil => rfl
  | cons c rest ih =>
    have h := ih (x ++ [c])
    rw [List.append_assoc, List.singleton_append, show blen (x ++ [c]) = blen x + c.utf8Size by simp [blen_append, blen_cons]] at h
    simp only [charIndices, searchLine, strFrom_append, Except.ok_bind', startsWith_eq, h]
    rw [List.length_cons, List.range_succ_eq_map, List.filter_cons, List.filter_map, List.drop_zero]
    have e : ((List.range rest.length).filter ((fun n => needle.isPrefixOf (List.drop n (c :: rest))) ∘ Nat.succ)) =
        (List.range rest.length).filter fun n => needle.isPrefixOf (rest.drop n) := rfl
    rw [e]
    split
    · simp [blen_cons, Nat.add_assoc]
    · simp [blen_cons, Nat.add_assoc]

theorem searchLines_found (needle : Text) (ls : List Text) (number : Nat) : searchLines needle number ls =
    .ok ((ls.zipIdx number).flatMap fun x => (occurrences needle x.1).map fun o => ⟨x.2, o⟩) := by
  induction ls generalizing number with
  | nil => rfl
  | cons l ls ih =>
    have h := searchLine_found needle [] l number
    rw [List.nil_append, show blen [] = 0 from rfl] at h
    simp only [searchLines, h, Except.ok_bind', ih]
    simp [occurrences, List.zipIdx_cons, Function.comp_def]

theorem search_found {b : Buf} {t : Text} (h : b.data.toStr = .ok t) (needle : Text) : b.search needle = .ok (found needle t) := by
  simp only [Buf.search, h, Except.ok_bind', searchLines_found]; rfl

/-! ## Answers -/

theorem relative_shown (w : Workspace σ) (b : FileBuf σ) : w.relative b = b.path.map (shown w.path) := by
  obtain ⟨k1, k2, k3⟩ := C43_relative w b
  cases hx : b.path with
  | none => exact k1 hx
  | some p =>
    rw [Option.map_some]
    unfold shown
    by_cases hp : w.path <+: p
    · obtain ⟨q, rfl⟩ := hp
      rw [k2 q hx, if_pos ⟨q, rfl⟩, List.drop_left]
    · rw [k3 p hx (fun q hq => hp ⟨q, hq.symm⟩), if_neg hp]

theorem Desks.askBuf {e : Editor σ} {s : Syntaxes σ} {d : Desktop σ} (h : Desks S A e s d) (f : FileBuf σ → R (Reply σ)) (g : Sheet σ → Reply σ)
    (hf : ∀ b x, e.ws.current = some b → d.docs.tabs.selected = some x → Sheeted S A b x → f b = .ok (g x)) : e.askBuf f = .ok (d.askDoc g) := by
  unfold Editor.askBuf Desktop.askDoc
  rcases h.docs.selected with ⟨k1, k2⟩ | ⟨b, x, k1, k2, k3⟩
  · rw [k1, k2]
  · rw [k1, k2]; exact hf b x k1 k2 k3

theorem Desks.reply {e : Editor σ} {s : Syntaxes σ} {d : Desktop σ} (h : Desks S A e s d) (q : Ask) :
    e.reply S q = .ok (d.reply S.segs e.ws.path q) := by
  obtain ⟨s1, s2, s3, s4, s5⟩ := h.docs.sees (w0 := e.ws) rfl
  cases q with
  | data => exact h.askBuf _ _ fun b x _ _ k => by simp only [(k.shows (S := S)).text, Except.ok_bind']; rfl
  | read p q =>
    refine h.askBuf _ _ fun b x _ _ k => ?_
    have := GapBuffer.Zips.read (S := S) k.sim.data (Range.new p q) (by rw [range_new]; exact lo_le_hi p q) x.doc rfl
    rw [range_new] at this
    rw [range_new, this]; rfl
  | search needle => exact h.askBuf _ _ fun b x _ _ k => by simp only [search_found (k.shows (S := S)).text, Except.ok_bind']; rfl
  | lineCount => exact h.askBuf _ _ fun b x _ _ k => by simp only [(C31_line_count _ _ (k.shows (S := S)).text).1, Except.ok_bind']; rfl
  | modified => exact h.askBuf _ _ fun b x _ _ k => by rw [(k.shows (S := S)).modified]
  | cursor => exact h.askBuf _ _ fun b x _ _ k => by rw [(k.shows (S := S)).cursor]
  | inBounds p => exact h.askBuf _ _ fun b x _ _ k => by simp only [(k.shows (S := S)).places, Except.ok_bind']; rfl
  | id => exact h.askBuf _ _ fun b x _ _ k => by rw [k.id]
  | path => exact h.askBuf _ _ fun b x _ _ k => by rw [k.path]
  | name => exact h.askBuf _ _ fun b x _ _ k => by unfold FileBuf.fileName; rw [k.path]
  | extension => exact h.askBuf _ _ fun b x _ _ k => by unfold FileBuf.fileExtension; rw [k.path]
  | index => simp only [Editor.reply, s1]; rfl
  | currentPath =>
    simp only [Editor.reply, Desktop.reply, Workspace.currentBufferPath]
    rcases h.docs.selected with ⟨k1, k2⟩ | ⟨b, x, k1, k2, k3⟩
    · rw [k1, k2]; rfl
    · rw [k1, k2, Option.bind_some, Option.bind_some, relative_shown, k3.path]
  | paths => simp only [Editor.reply, s4]; rfl
  | tokens =>
    simp only [Editor.reply, s5, Except.ok_bind', Desktop.reply]
    cases d.docs.tabs.selected with
    | none => rfl
    | some x => dsimp only; cases x.syn <;> rfl

theorem writeAll_stops (file : Nat) (rs : List WriteRes) (disk : Disk) (bs : Bytes) : (writeAll file rs disk bs).2 = stops rs bs.length := by
  induction rs generalizing disk bs with
  | nil => cases bs <;> rfl
  | cons r rs ih =>
    cases bs with
    | nil => cases r <;> rfl
    | cons b bs =>
      cases r with
      | failed => rfl
      | interrupted => exact (ih disk (b :: bs)).trans rfl
      | wrote n =>
        cases n with
        | zero => rfl
        | succ n =>
          simp only [writeAll, List.isEmpty_cons, Bool.false_eq_true, if_false, ih]
          simp [stops]

theorem Sheeted.ending {b : FileBuf σ} {x : Sheet σ} (k : Sheeted S A b x) (disk : Disk) (env : SaveEnv) :
    ∃ r, b.save (W.env b.path env) disk = .ok r ∧ r.2.1 = Desktop.ending W x env := by
  have ht : b.buf.data.toStr = .ok x.doc.zip.text := (k.shows (S := S)).text
  unfold FileBuf.save Desktop.ending FileTree.env Desktop.target
  rw [← k.path]
  cases hc : env.create with
  | none => exact ⟨_, rfl, rfl⟩
  | some c =>
    cases c with
    | none => cases hp : b.path.getD [] <;> exact ⟨_, rfl, rfl⟩
    | some f =>
      cases hp : b.path.getD [] with
      | nil => exact ⟨_, rfl, rfl⟩
      | cons y ys =>
        simp only [Option.map, Option.bind]
        rw [if_neg (by simp)]
        cases hs : W.slot (y :: ys) with
        | none => exact ⟨_, rfl, rfl⟩
        | some n =>
          simp only [ht, Except.ok_bind']
          have := writeAll_stops n env.writes (fun f => if f = n then some [] else disk f) (enc x.doc.zip.text)
          rw [← this]
          cases he : (writeAll n env.writes (fun f => if f = n then some [] else disk f) (enc x.doc.zip.text)).2 <;> exact ⟨_, rfl, rfl⟩

theorem Desks.result {e : Editor σ} {s : Syntaxes σ} {d : Desktop σ} (h : Desks S A e s d) (a : Deed σ) :
    e.result S A W a = .ok (d.result S.segs A.grant s W a) := by
  have told : ∀ (c : Act σ) r w', e.ws.act S A c = .ok (r, w') → r = (d.docs.act S.segs A.grant s c).1 := by
    intro c r w' hc
    obtain ⟨w'', k1, _⟩ := h.docs.act (S := S) c
    rw [hc] at k1
    exact (Prod.mk.inj (Except.ok.inj k1)).1
  cases a with
  | fresh | close | next | previous => rfl
  | setSyntax => exact h.askBuf _ _ fun b x _ _ k => rfl
  | openPath clock readable p =>
    simp only [Editor.result, Desktop.result, ← files_eq h.disk]
    obtain ⟨w', k1, _⟩ := h.docs.act (S := S) (.openPath clock (W.fs e.disk readable) (W.fs e.disk readable) (W.fs e.disk readable) p)
    simp only [Workspace.act] at k1
    rw [k1]; rfl
  | updateSyntax =>
    have := told .updateSyntax _ _ rfl
    exact congrArg (fun x => Except.ok (Reply.flag x)) this
  | cmd c =>
    cases c with
    | move m =>
      cases m with
      | «to» p =>
        refine h.askBuf _ _ fun b x _ _ k => ?_
        rw [GapBuffer.Zips.moveTo k.sim.data]; rfl
      | _ => exact h.askBuf _ _ fun b x _ _ k => rfl
    | _ => exact h.askBuf _ _ fun b x _ _ k => rfl
  | save env =>
    refine h.askBuf _ _ fun b x _ _ k => ?_
    obtain ⟨r, h1, h2⟩ := k.ending (W := W) e.disk env
    simp only [h1, Except.ok_bind', h2]; rfl
  | saveAs p env =>
    refine h.askBuf _ _ fun b x _ _ k => ?_
    have k' : Sheeted S A { b with path := some p } { x with path := some p } := ⟨k.sim, k.born, k.id, rfl, k.syn⟩
    obtain ⟨r, h1, h2⟩ := k'.ending (W := W) e.disk env
    simp only [h1, Except.ok_bind', h2]; rfl
  | reload readable =>
    refine h.askBuf _ _ fun b x _ _ k => ?_
    rw [← files_eq h.disk, ← k.path]
    unfold FileBuf.reload
    cases hp : b.path with
    | none => rfl
    | some p =>
      simp only [Option.bind_some]
      cases hr : (W.fs e.disk readable).readToString p with
      | none => rfl
      | some t =>
        obtain ⟨b', k1, _⟩ := k.sim.step (S := S) (A := A) (born_sane k.born) (.reload t)
        simp only [Buf.exec] at k1
        simp only [k1, Except.ok_bind']; rfl

theorem Desks.talk {s : Syntaxes σ} (ls : List (Line σ)) {e : Editor σ} {d : Desktop σ} (h : Desks S A e s d) :
    ∃ e', e.talk S A W ls = .ok ((d.talk S.segs A.grant s W e.ws.path ls).1, e') ∧
      Desks S A e' s (d.talk S.segs A.grant s W e.ws.path ls).2 ∧ e'.ws.path = e.ws.path := by
  induction ls generalizing e d with
  | nil => exact ⟨e, rfl, h, rfl⟩
  | cons l ls ih =>
    cases l with
    | deed a =>
      obtain ⟨e1, h1, h2, h3⟩ := h.step (W := W) a
      obtain ⟨e', k1, k2, k3⟩ := ih h2
      rw [h3] at k1 k2 k3
      exact ⟨e', by simp only [Editor.talk, h.result, h1, k1, Except.ok_bind']; rfl, k2, k3⟩
    | ask q =>
      obtain ⟨e', k1, k2, k3⟩ := ih h
      exact ⟨e', by simp only [Editor.talk, h.reply, k1, Except.ok_bind']; rfl, k2, k3⟩

end Scribe
