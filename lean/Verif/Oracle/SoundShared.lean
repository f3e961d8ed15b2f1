import Verif.Oracle.Rest
import Verif.Oracle.SoundBasic
import Verif.Props.Machine
import Verif.Props.Shared
import Verif.Props.MachineRest
import Verif.Props.Resume
import Verif.Oracle.SoundWorkspace
/-! # The executable forms of C58–C65, C72 and C73 follow from the theorems -/
namespace Scribe.Oracle
open Spec Props

variable {S : Segmenter} {A : Alloc}

/-! ## Machine arithmetic -/
section
open Machine
variable [Word]

theorem s_C58 (k : Nat) (t : Text) (cs : List GapBuffer.Call) : o_C58_gap_buffer S A k t cs = true := by
  simp only [o_C58_gap_buffer, imp_iff, Bool.and_eq_true, Bool.or_eq_true, okAnd_iff, decide_eq_true_eq, List.all_eq_true]
  intro hc
  rcases C58_gap_buffer S A k t cs (fun p q h => by simpa using hc _ h) with h | ⟨r, h1, h2⟩
  · exact ⟨by rw [h, h], .inl (h _)⟩
  · exact ⟨by rw [h1, h1], .inr ⟨r, h1 _, h2⟩⟩

theorem s_C58_refused (M : Mode) (k : Nat) (t : Text) (cs : List GapBuffer.Call) : o_C58_refused S A M k t cs = true := by
  simp only [o_C58_refused, imp_iff, okImp_iff, decide_eq_true_eq, List.all_eq_true]
  intro hc r hr
  exact C58_refused M S A k t cs r (fun p q h => by simpa using hc _ h) hr

theorem smallArgs_sound {cs : List Buf.Cmd} (h : smallArgs cs = true) :
    (∀ s, .insert s ∈ cs → blen s < 2 ^ (Word.bits - 1)) ∧ (∀ p q, .deleteRange p q ∈ cs → p.line < 2 ^ (Word.bits - 1) ∧ q.line < 2 ^ (Word.bits - 1)) ∧
    ∀ p, .setCursor p ∈ cs → p.line < 2 ^ (Word.bits - 1) ∧ p.offset < 2 ^ (Word.bits - 1) := by
  simp only [smallArgs, List.all_eq_true] at h
  exact ⟨fun s k => by simpa using h _ k, fun p q k => by simpa using h _ k, fun p k => by simpa using h _ k⟩

theorem s_C59 (k : Nat) (content : Option Text) (cs : List Buf.Cmd) : o_C59_buffer S A k content cs = true := by
  simp only [o_C59_buffer, imp_iff, Bool.and_eq_true, Bool.or_eq_true, okAnd_iff, decide_eq_true_eq]
  intro hc
  obtain ⟨a, b, c⟩ := smallArgs_sound hc
  rcases C59_buffer S A k content cs a b c with h | ⟨r, h1, h2⟩
  · exact ⟨by rw [h, h], .inl (h _)⟩
  · exact ⟨by rw [h1, h1], .inr ⟨r, h1 _, h2⟩⟩

theorem s_C59_refused (M : Mode) (k : Nat) (content : Option Text) (cs : List Buf.Cmd) : o_C59_refused S A M k content cs = true := by
  simp only [o_C59_refused, imp_iff, okImp_iff, decide_eq_true_eq]
  intro hc b hb
  obtain ⟨h1, h2, h3⟩ := smallArgs_sound hc
  exact C59_refused M S A k content cs b h1 h2 h3 hb

theorem s_C59_line_count (M : Mode) (k : Nat) (content : Option Text) (cs : List Buf.Cmd) : o_C59_line_count S A M k content cs = true := by
  simp only [o_C59_line_count, imp_iff, okImp_iff, decide_eq_true_eq]
  intro hc b hb
  obtain ⟨h1, h2, h3⟩ := smallArgs_sound hc
  exact C59_line_count M S A k content cs b h1 h2 h3 hb

theorem s_C60 {g : GapBuffer} {t : Text} (h : Holds S g t) (p : Position) (o : Nat) : o_C60_last_line_number S g t p o = true := by
  simp only [o_C60_last_line_number, imp_iff, someImp_iff]
  rintro hf ⟨x, y⟩ hp
  obtain ⟨h1, h2, h3, h4⟩ := C60_last_line_number S g t x y p ⟨2 ^ Word.bits - 1, o⟩ h hf (place?_some.mp hp) rfl
  simp only [Bool.and_eq_true, okAnd_iff, decide_eq_true_eq]
  refine ⟨h1, ?_⟩
  by_cases hx : x = []
  · obtain ⟨g', k1, k2⟩ := h4 hx
    exact ⟨g', k1, by rw [if_pos hx]; exact decide_eq_true k2⟩
  · obtain ⟨g', k1, k2⟩ := h2 hx
    refine ⟨g', k1, ?_⟩
    rw [if_neg hx]
    simp only [Bool.and_eq_true, imp_iff, decide_eq_true_eq]
    refine ⟨k2, fun hg => ?_⟩
    obtain ⟨g'', k3, k4⟩ := h3 hx hg
    rw [k1] at k3; cases k3
    exact k4

theorem s_C61 (p : Position) (d : Distance) (r : LineRange) : o_C61_positions p d r = true := by
  obtain ⟨h1, h2, h3, h4⟩ := C61_positions p d r
  simp only [o_C61_positions, imp_iff, Bool.and_eq_true, List.all_eq_true, decide_eq_true_eq]
  exact ⟨⟨fun M _ => ⟨h1 M, h3 M⟩, h2⟩, h4⟩

theorem s_C61_inverted (r : LineRange) : o_C61_inverted r = true := by
  simp only [o_C61_inverted, imp_iff, decide_eq_true_eq]
  exact C61_inverted r
theorem s_C72_lines (M : Mode) (data : Text) (n : Nat) : o_C72_lines M data n = true :=
  imp_iff.mpr fun h => decide_eq_true (C72_lines M data h n)

theorem s_C72 (M : Mode) {H : Highlighter} [DecidableEq H.Scopes] [DecidableEq H.Err] (data : Text) (n : Nat) :
    o_C72_tokens S M H data n = true := by
  refine imp_iff.mpr fun h => ?_
  obtain ⟨h1, h2⟩ := C72_tokens M S H data h
  rw [h1]
  obtain ⟨r, hr⟩ : ∃ r, TokenIter.new H data = .ok r := by
    have h := C103_calls S H data
    split at h
    · exact ⟨_, h⟩
    · obtain ⟨it, h, _⟩ := h; exact ⟨_, h⟩
  rw [hr]
  cases r with
  | error e => rfl
  | ok it => simp only [h2 it hr n, decide_true]

theorem s_C73 (M : Mode) (s : Syntaxes Nat) (root : Path) (cs : List (Workspace.Call Nat)) :
    o_C73_workspace A M s root cs = true := by
  simp only [o_C73_workspace, imp_iff, someImp_iff]
  intro h w0 h0
  rw [C73_workspace M A _ _ s w0 h0 cs h]
  cases w0.calls A cs with
  | error e => simp
  | ok w => simp

theorem s_C73_results (M : Mode) (s : Syntaxes Nat) (root : Path) (cs : List (Workspace.Call Nat)) (c : Workspace.Call Nat) :
    o_C73_results A M s root cs c = true := by
  simp only [o_C73_results, imp_iff, someImp_iff, okAnd_iff]
  intro h w0 h0
  obtain ⟨w, r, w', h1, -, h3, h4⟩ := C73_results M A _ _ s w0 h0 cs c h
  exact ⟨w, h1, _, h3, _, h4, by simp⟩

theorem s_C73_ids_collide (s : Syntaxes Nat) (root : Path) (b : FileBuf Nat) : o_C73_ids_collide A s root b = true := by
  simp only [o_C73_ids_collide, someImp_iff, Bool.and_eq_true, okAnd_iff, decide_eq_true_eq]
  intro w0 h0
  obtain ⟨h1, h2⟩ := C73_ids_collide A _ _ s w0 h0 b
  rw [h1]
  exact ⟨rfl, h2⟩

end

/-! ## Shared gap buffers -/
section
open Shared

theorem diary_looks : Looks diary (fun p cells e => e ++ [(p, cells)]) := fun _ _ _ => rfl

@[simp] theorem sameWorld_refl (w : World Diary) : sameWorld w w = true := by simp [sameWorld]

theorem idle_iff {w : World Diary} : (w.cells.all fun c => decide (c.readers = 0) && !c.writing) = true ↔ Idle w := by
  simp [Idle]

theorem own_ownB {w : World Diary} {b : Shared.Buf Diary} {a : Scribe.Buf} (h : Own w diary b a) : ownB w b a = true := by
  simp only [ownB, Bool.and_eq_true, decide_eq_true_eq, idle_iff]
  refine ⟨⟨⟨⟨⟨⟨h.idle, h.cell⟩, h.shared⟩, h.cursor⟩, h.history⟩, h.group⟩, ?_⟩
  rw [h.callback]; cases a.callback <;> rfl

theorem s_C62 {f : Callback Diary} (hf : Behaves f) (k : Nat) (t : Text) (cs : List Scribe.Buf.Cmd) : o_C62_no_panic S A f k t cs = true := by
  have hw : Sound (⟨[], []⟩ : World Diary) := ⟨(fun c hc => by cases hc), (fun c hc => by cases hc)⟩
  obtain ⟨⟨b, w', u, h1, h2, h3⟩, b2, w2, u2, k1, k2, k3⟩ := C62_no_panic S A f hf ⟨[], []⟩ hw k t cs
  simp only [o_C62_no_panic, okAnd_iff, Bool.and_eq_true, idle_iff]
  exact ⟨⟨_, h1, _, h3, sameWorld_refl _, h2.1⟩, _, k1, _, k3, sameWorld_refl _, k2.1⟩

theorem s_C62_guards (w : World Diary) (b : Shared.Buf Diary) (s : Text) (p q : Position) : o_C62_guards S A w b s p q = true := by
  simp only [o_C62_guards, someImp_iff, imp_iff, Bool.and_eq_true]
  intro c hc
  obtain ⟨h1, h2⟩ := C62_guards S A diary w b c hc
  refine ⟨fun h => by rw [h1 h]; rfl, fun h => ?_⟩
  obtain ⟨k1, k2, k3, k4, k5, k6⟩ := h2 h
  exact ⟨⟨⟨⟨⟨by rw [k1]; rfl, by rw [k2]; rfl⟩, by rw [k3]; rfl⟩, by rw [k4]; rfl⟩, by rw [k5]; rfl⟩, fun e => by rw [k6 p e]; rfl⟩

theorem sameResult_bind {α β : Type} [DecidableEq β] (y : R α) (f : α → β) (w : World Diary) :
    sameResult (y >>= fun a => .ok (f a, w)) (y.map f) w = true := by
  cases y with
  | error e => simp [bind, Except.bind, Except.map, sameResult]
  | ok a => simp [bind, Except.bind, Except.map, sameResult]

theorem sameResult_bind' {α : Type} [DecidableEq α] (y : R α) (w : World Diary) : sameResult (y >>= fun a => .ok (a, w)) y w = true := by
  cases y with
  | error e => simp [bind, Except.bind, sameResult]
  | ok a => simp [bind, Except.bind, sameResult]

theorem s_C62_readers (w : World Diary) (b : Shared.Buf Diary) (p q : Position) (m : Cursor.Move) : o_C62_readers_allowed S w b p q m = true := by
  simp only [o_C62_readers_allowed, someImp_iff, imp_iff, Bool.and_eq_true]
  intro c hc hw hb
  obtain ⟨h1, h2, h3⟩ := C62_readers_allowed S w b c hc hw hb
  rw [h1, h2, h3]
  exact ⟨⟨sameResult_bind' _ _, sameResult_bind' _ _⟩, sameResult_bind _ _ _⟩

theorem diary_foldl (obs : List (Position × List Cell)) : ∀ e : Diary, obs.foldl (fun e o => (fun p cells e => e ++ [(p, cells)]) o.1 o.2 e) e = e ++ obs := by
  induction obs with
  | nil => intro e; simp
  | cons o obs ih => intro e; rw [List.foldl_cons, ih]; simp

theorem s_C63 (gs : List GapBuffer) (k : Nat) (content : Option Text) (cs : List Scribe.Buf.Cmd) : o_C63_by_value S A gs k content cs = true := by
  have hw : Idle (⟨gs.map .free, []⟩ : World Diary) := by
    intro c hc
    obtain ⟨g, _, rfl⟩ := List.mem_map.mp hc
    exact ⟨rfl, rfl⟩
  cases content with
  | some t =>
    obtain ⟨a, b, w', obs, h1, h2, h3, h4, h5⟩ := C63_by_value S A diary _ diary_looks _ hw k t cs
    simp only [o_C63_by_value, okAnd_iff, Bool.and_eq_true, decide_eq_true_eq]
    rw [diary_foldl] at h4
    exact ⟨a, h1, _, h2, own_ownB h3, by rw [← h5, h4]; rfl⟩
  | none =>
    obtain ⟨a, b, w', obs, h1, h2, h3, h4, h5⟩ := C63_by_value_new S A diary _ diary_looks _ hw k cs
    simp only [o_C63_by_value, okAnd_iff, Bool.and_eq_true, decide_eq_true_eq]
    rw [diary_foldl] at h4
    exact ⟨a, h1, _, h2, own_ownB h3, by rw [← h5, h4]; rfl⟩

theorem s_C63_sees {w : World Diary} {b : Shared.Buf Diary} {a : Scribe.Buf} (h : Own w diary b a) (c : Scribe.Buf.Cmd) :
    o_C63_callback_sees S A w b a c = true := by
  simp only [o_C63_callback_sees, imp_iff]
  intro hcb
  split
  · rfl
  · rename_i hc
    simp only [okImp_iff, okAnd_iff]
    intro a' ha
    obtain ⟨b', w', obs, h1, h2, h3, h4, h5, h6⟩ := C63_callback_sees S A diary _ diary_looks w b a a' c h hcb (fun v e => hc v e) ha
    rw [diary_foldl] at h3
    have e : w'.ext.drop w.ext.length = obs := by rw [h3]; simp
    refine ⟨_, h1, ?_⟩
    dsimp only
    rw [e]
    simp only [Bool.and_eq_true, someImp_iff, imp_iff, decide_eq_true_eq]
    exact ⟨⟨⟨⟨own_ownB h2, h3⟩, h4⟩, h5⟩, fun x hx => h6 x.1 x.2 hx⟩

theorem s_C64 (ms : List Many) (i j : Nat) : o_C64_independent S A ms i j = true := by
  obtain ⟨bs, w, as, h1, h2, h3, h4, h5⟩ := C64_independent S A diary _ diary_looks [] ms
  simp only [o_C64_independent, okAnd_iff]
  refine ⟨_, h1, as, h2, ?_⟩
  simp only [Bool.and_eq_true, decide_eq_true_eq]
  refine ⟨⟨h3, ?_⟩, ?_⟩
  · split
    · rename_i b a e1 e2; exact own_ownB (h4 i b a e1 e2)
    · rfl
  · split
    · rename_i b b' e1 e2
      simp only [imp_iff, decide_eq_true_eq]
      exact h5 i j b b' e1 e2
    · rfl

theorem s_C65_follows {w : World Diary} {b : Shared.Buf Diary} {a : Scribe.Buf} (h : Own w diary b a) (hs : Made S A a) (cs : List Scribe.Buf.Cmd)
    (m : Cursor.Move) : o_C65_clone_follows S A w b a cs m = true := by
  simp only [o_C65_clone_follows, imp_iff, okImp_iff, okAnd_iff, Bool.and_eq_true, decide_eq_true_eq, List.all_eq_true]
  rintro hc ⟨b', w'⟩ he
  obtain ⟨h1, a', h2, h3⟩ := C65_clone_follows S A diary _ diary_looks w b b' w' a cs h hs (fun c k => by
    have := hc c k; cases c <;> simp_all [inPlaceB, InPlace]) he
  exact ⟨h1, a', h2, by rw [h3]; exact sameResult_bind _ _ _⟩

theorem s_C65_stale {w : World Diary} {b : Shared.Buf Diary} {a : Scribe.Buf} (h : Own w diary b a) (hs : Made S A a) (t : Text)
    (cs : List Scribe.Buf.Cmd) (m : Cursor.Move) : o_C65_clone_goes_stale S A w b a t cs m = true := by
  simp only [o_C65_clone_goes_stale, imp_iff, okImp_iff, okAnd_iff, Bool.and_eq_true, decide_eq_true_eq]
  intro old ho hne
  obtain ⟨b', w', h1, h2, h3, h4⟩ := C65_clone_goes_stale S A diary _ diary_looks w b a old t cs h hs ho hne
  exact ⟨_, h1, ⟨h2, h3⟩, by rw [h4]; exact sameResult_bind _ _ _⟩
end

end Scribe.Oracle
