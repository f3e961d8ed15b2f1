import Verif.Spec.Machine
import Verif.Proofs.Machine
import Verif.Demo
/-!
# Machine arithmetic (C58-C61)

`usize` has any width of at least two bits (`Word`). In the debug build an overflowing `+` or `-` panics, in the release build it wraps. These theorems
compare both builds with each other and with the model over natural numbers that the other properties are about.
-/
namespace Scribe.Machine
open Spec GapBuffer

theorem gapSession_ag [Word] (S : Segmenter) (A : Alloc) (k : Nat) (t : Text) (cs : List Call)
    (hc : ∀ p q, .delete p q ∈ cs → p.line + 1 < 2 ^ Word.bits ∧ q.line + 1 < 2 ^ Word.bits) :
    ∃ r, Ag (Fit r.2) (fun x => Fit x.2) (fun M => gapSession M S A k t cs) r ∧ GapBuffer.run S A (GapBuffer.new A k t) cs = .ok r := by
  obtain ⟨os, g', x, y, h1, _⟩ := GapBuffer.run_rep (S := S) (A := A) (GapBuffer.new_rep k t) cs
  have hok : ∀ c ∈ cs, CallOk c := by
    intro c hm
    cases c with
    | delete p q => exact hc p q hm
    | _ => trivial
  refine ⟨(os, g'), Ag.iff (B := Fit (GapBuffer.new A k t) ∧ Fit g') ?_ ?_, h1⟩
  · exact (new_w k t).bind fun hf => run_w cs (GapBuffer.new_rep k t) hf hok h1
  · exact ⟨fun h => ⟨Nat.le_trans (run_len cs (GapBuffer.new_rep k t) h1) h, h⟩, And.right⟩

/-- **C58.** As long as no deletion ends on line `usize::MAX`, every session with a gap buffer gives in debug and in release builds
exactly the results of unbounded arithmetic; or both stop because an allocation would exceed `isize::MAX` bytes. -/
theorem C58_gap_buffer [Word] (S : Segmenter) (A : Alloc) (k : Nat) (t : Text) (cs : List Call)
    (hc : ∀ p q, .delete p q ∈ cs → p.line + 1 < 2 ^ Word.bits ∧ q.line + 1 < 2 ^ Word.bits) :
    (∀ M, gapSession M S A k t cs = .error .capacity) ∨
    ∃ r, (∀ M, gapSession M S A k t cs = .ok r) ∧ GapBuffer.run S A (GapBuffer.new A k t) cs = .ok r := by
  obtain ⟨r, h | ⟨_, h, _⟩, h1⟩ := gapSession_ag S A k t cs hc
  · exact .inl h.2
  · exact .inr ⟨_, h, h1⟩

/-- C58: which of the two happens. The session stops exactly when the vector it ends with under unbounded arithmetic is longer than `isize::MAX`
bytes. -/
theorem C58_refused [Word] (M : Mode) (S : Segmenter) (A : Alloc) (k : Nat) (t : Text) (cs : List Call) (r : List Obs × GapBuffer)
    (hc : ∀ p q, .delete p q ∈ cs → p.line + 1 < 2 ^ Word.bits ∧ q.line + 1 < 2 ^ Word.bits)
    (hr : GapBuffer.run S A (GapBuffer.new A k t) cs = .ok r) :
    gapSession M S A k t cs = if r.2.data.length < 2 ^ (Word.bits - 1) then .ok r else .error .capacity := by
  obtain ⟨r', h, h1⟩ := gapSession_ag S A k t cs hc
  obtain rfl := Except.ok.inj (h1.symm.trans hr)
  have e : r'.2.data.length < 2 ^ (Word.bits - 1) ↔ Fit r'.2 := by rw [half_eq]; exact Nat.lt_succ_iff
  rcases h with ⟨hb, h⟩ | ⟨hb, h, _⟩
  · rw [if_neg (fun k => hb (e.mp k))]; exact h M
  · rw [if_pos (e.mpr hb)]; exact h M

/-- C58: in particular there is no arithmetic panic. -/
theorem C58_no_arithmetic_panic [Word] (M : Mode) (S : Segmenter) (A : Alloc) (k : Nat) (t : Text) (cs : List Call)
    (hc : ∀ p q, .delete p q ∈ cs → p.line + 1 < 2 ^ Word.bits ∧ q.line + 1 < 2 ^ Word.bits) :
    gapSession M S A k t cs ≠ .error .overflow ∧ gapSession M S A k t cs ≠ .error .underflow := by
  rcases C58_gap_buffer S A k t cs hc with h | ⟨r, h, _⟩ <;> rw [h M] <;> simp

section
attribute [local instance] word64

/-- Both outcomes occur: an ordinary session, and (with addresses of four bits) an allocation that is refused. -/
example : gapSession .wrapping Demo.seg Demo.loose 0 (Demo.s "ab\ncd") [.insert (Demo.s "xyz") ⟨1, 1⟩, .delete ⟨0, 1⟩ ⟨1, 2⟩, .toStr, .read ⟨0, 0⟩ ⟨0, 2⟩]
    = gapSession .checked Demo.seg Demo.loose 0 (Demo.s "ab\ncd") [.insert (Demo.s "xyz") ⟨1, 1⟩, .delete ⟨0, 1⟩ ⟨1, 2⟩, .toStr, .read ⟨0, 0⟩ ⟨0, 2⟩] ∧
    (gapSession .checked Demo.seg Demo.loose 0 (Demo.s "ab\ncd") [.insert (Demo.s "xyz") ⟨1, 1⟩, .delete ⟨0, 1⟩ ⟨1, 2⟩, .toStr]).map Prod.fst
      = .ok [.done, .done, .text (Demo.s "ayzd")] := by decide +kernel

example : (letI : Word := ⟨4, by decide⟩
    (gapSession .wrapping Demo.seg Demo.tight 0 (Demo.s "ab\ncd") [.insert (Demo.s "xy") ⟨1, 1⟩, .toStr]).map Prod.fst
      = .ok [.done, .text (Demo.s "ab\ncxyd")] ∧
    gapSession .wrapping Demo.seg Demo.tight 0 (Demo.s "ab\ncd") [.insert (Demo.s "xyz") ⟨1, 1⟩, .toStr] = .error .capacity) := by decide +kernel

/-- The refused session ends, with unbounded arithmetic, with a vector of eight bytes; the other with one of seven. -/
example : (GapBuffer.run Demo.seg Demo.tight (GapBuffer.new Demo.tight 0 (Demo.s "ab\ncd")) [.insert (Demo.s "xyz") ⟨1, 1⟩, .toStr]).toOption.map (·.2.data.length)
    = some 8 ∧
    (GapBuffer.run Demo.seg Demo.tight (GapBuffer.new Demo.tight 0 (Demo.s "ab\ncd")) [.insert (Demo.s "xy") ⟨1, 1⟩, .toStr]).toOption.map (·.2.data.length)
    = some 7 := by decide +kernel

end

theorem fine_init [Word] {b : Buf} (h : Sane b) (hf : Fit b.data) (h1 : b.cursor = Cursor.new ⟨0, 0⟩) (h2 : b.history.previous = [])
    (h3 : b.history.next = []) (h4 : b.group = none) : Fine b :=
  ⟨h, hf, by rw [h1]; exact small_zero (Nat.zero_le _), by rw [h2]; simp, by rw [h3]; simp, by rw [h4]; simp⟩

theorem bufSession_ag [Word] (S : Segmenter) (A : Alloc) (k : Nat) (content : Option Text) (cs : List Buf.Cmd)
    (h1 : ∀ s, .insert s ∈ cs → blen s < 2 ^ (Word.bits - 1))
    (h2 : ∀ p q, .deleteRange p q ∈ cs → p.line < 2 ^ (Word.bits - 1) ∧ q.line < 2 ^ (Word.bits - 1))
    (h3 : ∀ p, .setCursor p ∈ cs → p.line < 2 ^ (Word.bits - 1) ∧ p.offset < 2 ^ (Word.bits - 1)) :
    ∃ b, Ag (∀ g ∈ sessionVectors S A k content cs, Fit g) Fine (fun M => bufSession M S A k content cs) b ∧ natSession S A k content cs = .ok b := by
  have hm := half_eq.symm
  have le : ∀ {n : Nat}, n < 2 ^ (Word.bits - 1) → n ≤ maxLen := fun h => Nat.le_of_lt_succ (by rw [Nat.succ_eq_add_one, hm]; exact h)
  have hok : ∀ c ∈ cs, CmdOk c := by
    intro c hc
    cases c with
    | insert s => exact le (h1 s hc)
    | deleteRange p q => exact ⟨le (h2 p q hc).1, le (h2 p q hc).2⟩
    | setCursor p => exact ⟨le (h3 p hc).1, le (h3 p hc).2⟩
    | _ => trivial
  cases content with
  | some t =>
    obtain ⟨b, e, _⟩ := execAll_safe (S := S) (A := A) cs (sane_fromContent k t)
    have hn : Ag (Fit (Buf.fromContent A k t).data) Fine (fun M => fromContent M A k t) (Buf.fromContent A k t) :=
      (new_w k t).bindT fun hf => .ret (fine_init (sane_fromContent k t) hf rfl rfl rfl rfl)
    exact ⟨b, (hn.bind fun hf => execAll_w cs hf hok e).iff (by simp only [sessionVectors, natStart, List.forall_mem_cons]), e⟩
  | none =>
    obtain ⟨b, e, _⟩ := execAll_safe (S := S) (A := A) cs (sane_new k)
    have hn : Ag (Fit (Buf.new A k).data) Fine (fun M => newBuf M A k) (Buf.new A k) :=
      (new_w k []).bindT fun hf => .ret (fine_init (sane_new k) hf rfl rfl rfl rfl)
    exact ⟨b, (hn.bind fun hf => execAll_w cs hf hok e).iff (by simp only [sessionVectors, natStart, List.forall_mem_cons]), e⟩

/-- **C59.** If the positions a caller passes to `delete_range` or stores in the cursor have coordinates up to `isize::MAX` (half of `usize::MAX`), and
the strings it inserts are no longer than strings can be, then every session with a buffer (edits, undo, redo, groups, replace, reload, cursor
movements) gives in debug and release builds exactly the results of unbounded arithmetic; or both stop because an allocation would exceed
`isize::MAX` bytes. -/
theorem C59_buffer [Word] (S : Segmenter) (A : Alloc) (k : Nat) (content : Option Text) (cs : List Buf.Cmd)
    (h1 : ∀ s, .insert s ∈ cs → blen s < 2 ^ (Word.bits - 1))
    (h2 : ∀ p q, .deleteRange p q ∈ cs → p.line < 2 ^ (Word.bits - 1) ∧ q.line < 2 ^ (Word.bits - 1))
    (h3 : ∀ p, .setCursor p ∈ cs → p.line < 2 ^ (Word.bits - 1) ∧ p.offset < 2 ^ (Word.bits - 1)) :
    (∀ M, bufSession M S A k content cs = .error .capacity) ∨
    ∃ b, (∀ M, bufSession M S A k content cs = .ok b) ∧ natSession S A k content cs = .ok b := by
  obtain ⟨b, h | ⟨_, h, _⟩, e⟩ := bufSession_ag S A k content cs h1 h2 h3
  · exact .inl h.2
  · exact .inr ⟨b, h, e⟩

/-- C59: which of the two happens. The session stops exactly when, under unbounded arithmetic, some vector on the way (`sessionVectors`) is longer than
`isize::MAX` bytes. -/
theorem C59_refused [Word] (M : Mode) (S : Segmenter) (A : Alloc) (k : Nat) (content : Option Text) (cs : List Buf.Cmd) (b : Buf)
    (h1 : ∀ s, .insert s ∈ cs → blen s < 2 ^ (Word.bits - 1))
    (h2 : ∀ p q, .deleteRange p q ∈ cs → p.line < 2 ^ (Word.bits - 1) ∧ q.line < 2 ^ (Word.bits - 1))
    (h3 : ∀ p, .setCursor p ∈ cs → p.line < 2 ^ (Word.bits - 1) ∧ p.offset < 2 ^ (Word.bits - 1))
    (hb : natSession S A k content cs = .ok b) :
    bufSession M S A k content cs =
      if ∀ g ∈ sessionVectors S A k content cs, g.data.length < 2 ^ (Word.bits - 1) then .ok b else .error .capacity := by
  obtain ⟨b', h, e⟩ := bufSession_ag S A k content cs h1 h2 h3
  obtain rfl := Except.ok.inj (e.symm.trans hb)
  have e : (∀ g ∈ sessionVectors S A k content cs, g.data.length < 2 ^ (Word.bits - 1)) ↔ ∀ g ∈ sessionVectors S A k content cs, Fit g := by
    simp only [half_eq, Fit, Nat.lt_succ_iff]
  rcases h with ⟨hb, h⟩ | ⟨hb, h, _⟩
  · rw [if_neg (fun k => hb (e.mp k))]; exact h M
  · rw [if_pos (e.mpr hb)]; exact h M

/-- C59: in particular there is no arithmetic panic. -/
theorem C59_no_arithmetic_panic [Word] (M : Mode) (S : Segmenter) (A : Alloc) (k : Nat) (content : Option Text) (cs : List Buf.Cmd)
    (h1 : ∀ s, .insert s ∈ cs → blen s < 2 ^ (Word.bits - 1))
    (h2 : ∀ p q, .deleteRange p q ∈ cs → p.line < 2 ^ (Word.bits - 1) ∧ q.line < 2 ^ (Word.bits - 1))
    (h3 : ∀ p, .setCursor p ∈ cs → p.line < 2 ^ (Word.bits - 1) ∧ p.offset < 2 ^ (Word.bits - 1)) :
    bufSession M S A k content cs ≠ .error .overflow ∧ bufSession M S A k content cs ≠ .error .underflow := by
  rcases C59_buffer S A k content cs h1 h2 h3 with h | ⟨b, h, _⟩ <;> rw [h M] <;> simp

/-- C59: `line_count` is exact as well. -/
theorem C59_line_count [Word] (M : Mode) (S : Segmenter) (A : Alloc) (k : Nat) (content : Option Text) (cs : List Buf.Cmd) (b : Buf)
    (h1 : ∀ s, .insert s ∈ cs → blen s < 2 ^ (Word.bits - 1))
    (h2 : ∀ p q, .deleteRange p q ∈ cs → p.line < 2 ^ (Word.bits - 1) ∧ q.line < 2 ^ (Word.bits - 1))
    (h3 : ∀ p, .setCursor p ∈ cs → p.line < 2 ^ (Word.bits - 1) ∧ p.offset < 2 ^ (Word.bits - 1))
    (hs : bufSession M S A k content cs = .ok b) : lineCount M b = b.lineCount := by
  have hW := W_eq
  obtain ⟨b', h | ⟨_, h, hb⟩, _⟩ := bufSession_ag S A k content cs h1 h2 h3
  · cases (h.2 M).symm.trans hs
  obtain rfl := Except.ok.inj ((h M).symm.trans hs)
  obtain ⟨pre, post, hr⟩ := hb.sane.data
  have hf := hb.fit
  unfold lineCount Buf.lineCount
  have hl := hr.length
  have hs := hr.start
  have hc := countNl_le (pre ++ post)
  rw [blen_append] at hc
  unfold Fit at hf
  simp only [toStr_w hr hf, hr.toStr, Except.ok_bind', addW_ok (M := M) (show countNl (pre ++ post) + 1 < W by omega)]
  rfl

section
attribute [local instance] word64

example : (bufSession .wrapping Demo.seg Demo.tight 0 (some (Demo.s "ab\ncd")) [.setCursor ⟨2 ^ 62, 2 ^ 62⟩, .insert (Demo.s "q"), .move .down, .delete,
      .undo, .undo, .deleteRange ⟨0, 1⟩ ⟨2 ^ 62, 3⟩, .undo, .redo]).toOption.map (fun b => (b.data.toStr.toOption, b.cursor.position))
    = some (some (Demo.s "a"), ⟨2 ^ 62, 2 ^ 62⟩) ∧
    bufSession .checked Demo.seg Demo.tight 0 (some (Demo.s "ab")) [.setCursor ⟨2 ^ 64 - 1, 0⟩, .move .down] = .error .overflow := by
  decide +kernel

/-- The vector that stops a session (with addresses of four bits) is neither the first nor the last here: those have two bytes each. -/
example : (letI : Word := ⟨4, by decide⟩
    let cs : List Buf.Cmd := [.replace (Demo.s "abcdefg"), .insert (Demo.s "h"), .replace (Demo.s "ab")]
    (sessionVectors Demo.seg Demo.tight 0 (some (Demo.s "ab")) cs).map (·.data.length) = [2, 7, 8, 2] ∧
    bufSession .wrapping Demo.seg Demo.tight 0 (some (Demo.s "ab")) cs = .error .capacity) := by decide +kernel

end

/-- **C60** (finding). `delete` with an end on line `usize::MAX`, where the start exists: the debug build panics. The release build wraps to the start
of line 0: when the start is not the start of the buffer it makes the gap "negative", so that nothing is deleted and
the bytes of the vector from the very beginning, the old gap included, appear again after the text before the start. -/
theorem C60_last_line_number [Word] (S : Segmenter) (g : GapBuffer) (t x y : Text) (p q : Position)
    (h : Holds S g t) (hf : g.data.length < 2 ^ (Word.bits - 1)) (hp : PlaceIn (S.segs t) p x y) (hq : q.line = 2 ^ Word.bits - 1) :
    delete .checked S g (Range.new p q) = .error .overflow ∧
    (x ≠ [] → ∃ g', delete .wrapping S g (Range.new p q) = .ok g' ∧ toStr .wrapping g' = .ok (x ++ lossy g'.data)) ∧
    (x ≠ [] → g.gapLength = 0 → ∃ g', delete .wrapping S g (Range.new p q) = .ok g' ∧ toStr .wrapping g' = .ok (x ++ t)) ∧
    (x = [] → ∃ g', delete .wrapping S g (Range.new p q) = .ok g' ∧ toStr .wrapping g' = .ok t) := by
  have hm := half_eq.symm
  have hW := W_eq
  have hpow : 2 ^ Word.bits = W := rfl
  have hpos := maxLen_pos
  have hf' : Fit g := Nat.le_of_lt_succ (by rw [Nat.succ_eq_add_one, hm]; exact hf)
  obtain ⟨pre, post, rfl, hr, hal⟩ := h
  obtain ⟨a, b, hab, rfl, rfl, hpa⟩ := hp
  rw [hal] at hab
  have hloc : locate (S.segs pre ++ S.segs post) p = some (a, b) := locate_eq_some.mpr ⟨hab, hpa⟩
  have ht : pre ++ post = a.flatten ++ b.flatten := by
    rw [← List.flatten_append, ← hab, List.flatten_append, S.join, S.join]
  have hps := bounds_small hr hf' (p := p) (by rw [hloc]; rfl)
  have hrange : Range.new p q = ⟨p, q⟩ := by
    apply range_new_of_le
    have := hps.1
    left; show p.line < q.line
    rw [hq]; omega
  obtain ⟨g1, hm1, hmv⟩ := moveGap_to (S := S) hr hab
  have hr1 := hmv.rep
  have hf1 : Fit g1 := by unfold Fit; rw [hmv.len]; exact hf'
  have hfind : GapBuffer.findOffset S g p = .ok (some (rawOff S g pre a)) := findOffset_some hr hab hpa
  have hmiss : GapBuffer.findOffset S g1 q = .ok none := by
    rw [findOffset_eq hr1]
    cases hl : locate (S.segs a.flatten ++ S.segs b.flatten) q with
    | none => rfl
    | some z =>
      have := (bounds_small hr1 hf1 (p := q) (by rw [hl]; rfl)).1
      omega
  have hzero : GapBuffer.findOffset S g1 ⟨0, 0⟩ = .ok (some (rawOff S g1 a.flatten [])) :=
    findOffset_some hr1 (a := []) rfl rfl
  have key : ∀ M, delete M S g (Range.new p q) = (do
      let line ← addW M q.line 1
      match ← GapBuffer.findOffset S g1 ⟨line, 0⟩ with
      | some eo =>
        let gl ← subW M eo g1.gapStart
        return { g1 with gapLength := gl }
      | none =>
        let gl ← subW M g1.data.length g1.gapStart
        return { g1 with gapLength := gl }) := by
    intro M
    unfold delete
    simp only [hrange, findOffset_w hr hf', hfind, Except.ok_bind', moveGap_w hr.wf hf' hm1, findOffset_w hr1 hf1, hmiss]
    rfl
  have hl1 := hr1.length
  have hs1 := hr1.start
  have e1 : q.line + 1 = W := by rw [hq]; omega
  have wrapped : delete .wrapping S g (Range.new p q) = (do
      let gl ← subW .wrapping (rawOff S g1 a.flatten []) g1.gapStart
      return { g1 with gapLength := gl }) := by
    rw [key]
    unfold addW
    rw [if_neg (by omega)]
    simp only [Except.ok_bind']
    rw [e1, Nat.mod_self, hzero]
    rfl
  have far : a.flatten ≠ [] → ∃ g', delete .wrapping S g (Range.new p q) = .ok g' ∧ g'.data = g1.data ∧
      toStr .wrapping g' = .ok (a.flatten ++ lossy g'.data) := by
    intro hx
    have hne : 0 < (S.segs a.flatten).length := by
      apply List.length_pos_iff.mpr
      intro h0
      apply hx
      rw [← S.join a.flatten, h0]; rfl
    have hb := blen_pos hx
    unfold Fit at hf1
    refine ⟨{ g1 with gapLength := W - g1.gapStart }, ?_, rfl, ?_⟩
    · rw [wrapped]
      unfold rawOff
      rw [if_pos (by simpa using hne)]
      unfold subW
      rw [if_neg (by simp; omega)]
      simp only [Except.ok_bind']
      rw [show (blen ([] : List Text).flatten + W - g1.gapStart) % W = W - g1.gapStart by
        simp only [List.flatten_nil, blen_nil, Nat.zero_add]; apply Nat.mod_eq_of_lt; omega]
      rfl
    · unfold toStr addW
      dsimp only
      rw [hr1.first, Except.ok_bind', if_neg (by omega)]
      simp only [Except.ok_bind']
      rw [show g1.gapStart + (W - g1.gapStart) = W by omega, Nat.mod_self]
      unfold slice
      rw [if_pos ⟨Nat.zero_le _, Nat.le_refl _⟩]
      simp only [Except.ok_bind', lossy_enc, List.take_length, List.drop_zero]
      rfl
  refine ⟨?_, ?_, ?_, ?_⟩
  · rw [key]
    unfold addW
    rw [if_neg (by omega)]
    rfl
  · intro hx
    obtain ⟨g', h1, h2, h3⟩ := far hx
    exact ⟨g', h1, h3⟩
  · intro hx hg
    obtain ⟨g', h1, h2, h3⟩ := far hx
    refine ⟨g', h1, ?_⟩
    rw [h3, h2, ht]
    obtain ⟨gap, k1, k2, k3⟩ := hr1
    have : gap = [] := List.length_eq_zero_iff.mp (by rw [← k3, hmv.gap, hg])
    rw [k1, this, List.append_nil, ← enc_append, lossy_enc]
  · intro hx
    refine ⟨g1, ?_, ?_⟩
    · rw [wrapped]
      have h0 : g1.gapStart = 0 := by rw [hs1, hx]; rfl
      have h2 : rawOff S g1 a.flatten [] = g1.gapLength := by
        unfold rawOff; rw [hx, if_neg (by simp)]; rfl
      have h3 : subW .wrapping g1.gapLength g1.gapStart = .ok g1.gapLength := by
        unfold subW; rw [h0, if_pos (Nat.zero_le _)]; rfl
      rw [h2, h3]
      rfl
    · rw [toStr_w hr1 hf1, hr1.toStr, ht]

section
attribute [local instance] word64

/-- In the release build, deleting from (0, 1) "to the last line number" turns "abc" into "aabc". -/
example : (delete .wrapping Demo.seg (GapBuffer.new Demo.tight 0 (Demo.s "abc")) (Range.new ⟨0, 1⟩ ⟨2 ^ 64 - 1, 0⟩) >>= toStr .wrapping)
    = .ok (Demo.s "aabc") ∧
    delete .checked Demo.seg (GapBuffer.new Demo.tight 0 (Demo.s "abc")) (Range.new ⟨0, 1⟩ ⟨2 ^ 64 - 1, 0⟩) = .error .overflow := by
  decide +kernel

end

/-- **C61.** Adding a distance to a position, and `to_inclusive_range`, are exact in both builds when the exact result is
representable; otherwise the debug build panics. -/
theorem C61_positions [Word] (p : Position) (d : Distance) (r : LineRange) :
    (∀ M, (p.add d).line < 2 ^ Word.bits → (p.add d).offset < 2 ^ Word.bits → posAdd M p d = .ok (p.add d)) ∧
    (¬ ((p.add d).line < 2 ^ Word.bits ∧ (d.lines = 0 → (p.add d).offset < 2 ^ Word.bits)) → posAdd .checked p d = .error .overflow) ∧
    (∀ M, r.stop + 1 < 2 ^ Word.bits → toInclusiveRange M r = .ok r.toInclusiveRange) ∧
    (¬ r.stop + 1 < 2 ^ Word.bits → toInclusiveRange .checked r = .error .overflow) := by
  have hW : W = 2 ^ Word.bits := rfl
  rw [← hW]
  refine ⟨fun M h1 h2 => ?_, fun h => ?_, fun M h => ?_, fun h => ?_⟩
  · unfold posAdd Position.add at *
    dsimp only at h1 h2 ⊢
    split at h2
    · next hd => rw [if_pos hd, if_pos hd, addW_ok h1]; rfl
    · next hd => rw [if_neg hd, if_neg hd, addW_ok h1, addW_ok h2]; rfl
  · unfold posAdd Position.add at *
    dsimp only at h ⊢
    by_cases hd : d.lines > 0
    · rw [if_pos hd]
      have : ¬ p.line + d.lines < W := fun hl => h ⟨hl, fun h0 => by omega⟩
      unfold addW
      rw [if_neg this]
      rfl
    · rw [if_neg hd] at h ⊢
      by_cases ho : p.offset + d.offset < W
      · have : ¬ p.line + d.lines < W := fun hl => h ⟨hl, fun _ => ho⟩
        rw [addW_ok ho]
        unfold addW
        rw [if_neg this]
        rfl
      · unfold addW
        rw [if_neg ho]
        rfl
  · unfold toInclusiveRange; rw [addW_ok h]; rfl
  · unfold toInclusiveRange addW; rw [if_neg h]; rfl

/-- C61 (finding): in the release build the inclusive range of a line range ending in line `usize::MAX` is the range of
everything *before* it. -/
theorem C61_inverted [Word] (r : LineRange) (h : r.stop = 2 ^ Word.bits - 1) :
    toInclusiveRange .wrapping r = .ok ⟨⟨0, 0⟩, ⟨r.start, 0⟩⟩ := by
  have hW : W = 2 ^ Word.bits := rfl
  unfold toInclusiveRange addW
  have hpos : 1 ≤ 2 ^ Word.bits := Nat.one_le_two_pow
  rw [h, if_neg (by rw [hW]; omega), Nat.sub_add_cancel hpos, hW, Nat.mod_self]
  simp only [Except.ok_bind']
  cases hs : r.start with
  | zero => rfl
  | succ n => rfl

section
attribute [local instance] word64

example : toInclusiveRange .wrapping (LineRange.new 5 (2 ^ 64 - 1)) = .ok ⟨⟨0, 0⟩, ⟨5, 0⟩⟩ ∧
    posAdd .checked ⟨1, 2⟩ ⟨0, 3⟩ = .ok ⟨1, 5⟩ := by decide +kernel

end

end Scribe.Machine
