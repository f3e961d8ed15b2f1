import Verif.Proofs.Guarded
import Verif.Proofs.Shared
/-! # C110: guards of cells -/
namespace Scribe.Guarded
open Scribe (Buf SOp Op)
open Scribe.Buf (Cmd)
open Shared (World Cell Cur Ptr withRead withWrite)
open Unwind (undone undoneHistory)
variable {S : Segmenter} {A : Alloc} {ξ : Type}

/-- An edit with guards, in the model with pointers. -/
def Ends {α : Type} (c : Cell) (stop renew : Bool) (x : R (α × World ξ)) (out : α → Shared.Buf ξ) (rest : α → Prop) (a : Buf) : Prop :=
  if kind c ≠ .free ∧ stop = true then x = .error .borrow
  else ∃ r w c', x = .ok (r, w) ∧ Uses w (out r) c' a ∧ kind c' = (if renew then .free else kind c) ∧ rest r

theorem kind_free (g : GapBuffer) : kind (.free g) = .free := rfl

theorem kind_eq_free {c : Cell} (h : kind c = .free) : c = .free c.value := by
  obtain ⟨g, n, v⟩ := c
  cases v <;> simp [kind] at h
  subst h; rfl

theorem reads_blocked {α : Type} {w : World ξ} {p : Ptr} {c : Cell} (h : w.cells[p]? = some c) (hk : kind c = .exclusive)
    (f : GapBuffer → World ξ → R (α × World ξ)) : withRead w p f = .error .borrow := by
  have : c.writing = true := by
    cases hv : c.writing <;> simp [kind, hv] at hk
    split at hk <;> cases hk
    rfl
  unfold withRead
  rw [World.get_of h, Except.ok_bind', if_pos this]

theorem writes_blocked {w : World ξ} {p : Ptr} {c : Cell} (h : w.cells[p]? = some c) (hk : kind c ≠ .free)
    (f : GapBuffer → World ξ → R (GapBuffer × World ξ)) : withWrite w p f = .error .borrow := by
  have : (c.writing || c.readers != 0) = true := by
    cases hv : c.writing
    · by_cases hr : c.readers = 0
      · exact absurd (by simp [kind, hv, hr]) hk
      · simp [hr]
    · rfl
  unfold withWrite
  rw [World.get_of h, Except.ok_bind', if_pos this]

theorem not_writing {c : Cell} (h : kind c ≠ .exclusive) : c.writing = false := by
  cases hv : c.writing
  · rfl
  · exact absurd (by simp [kind, hv]) h

theorem Uses.silentReport {w : World ξ} {b : Shared.Buf ξ} {c : Cell} {a : Buf} (h : Uses w b c a) (p : Position) :
    Shared.Buf.report w b p = .ok w ∧ a.report p = a := by
  constructor
  · unfold Shared.Buf.report; rw [h.callback]
  · unfold Buf.report; rw [if_neg (by simp [h.silent])]

/-- Writing to a free cell. -/
theorem Uses.write {w : World ξ} {b : Shared.Buf ξ} {c : Cell} {a : Buf} (h : Uses w b c a) (hk : kind c = .free) (F : GapBuffer → R GapBuffer)
    {d : GapBuffer} (hF : F a.data = .ok d) :
    withWrite w b.data (fun g w => F g >>= fun x => pure (x, w)) = .ok (w.set b.data (.free d)) ∧
    Uses (w.set b.data (.free d)) b (.free d) { a with data := d } := by
  have hc := h.cell
  have hv := h.value
  rw [kind_eq_free hk, hv] at hc
  refine ⟨by rw [Shared.withWrite_pure hc, hF]; rfl, ?_, rfl, h.shared, h.history, h.group, h.callback, h.silent⟩
  have := (List.getElem?_eq_some_iff.mp hc).1
  simp [World.set, this]

theorem replaceContent_ends {w : World ξ} {b : Shared.Buf ξ} {c : Cell} {a a1 : Buf} (h : Uses w b c a) (t : Text)
    (ha : Buf.replaceContent S A t a = .ok a1) :
    ∃ b' w', Shared.Buf.replaceContent S A w t b = .ok (b', w') ∧ Uses w' b' (.free a1.data) a1 := by
  unfold Buf.replaceContent at ha
  unfold Shared.Buf.replaceContent
  rw [World.get_of h.cell]
  simp only [Except.ok_bind', h.value]
  dsimp only at ha
  generalize hg : GapBuffer.new A a.data.clock t = g at ha ⊢
  have hw : (w.alloc g).2.cells[(w.alloc g).1]? = some (.free g) := by simp [World.alloc]
  have hat : b.cursor.at_ = a.cursor := by rw [h.shared]
  generalize w.alloc g = pw at hw ⊢
  obtain ⟨q, w1⟩ := pw
  dsimp only at hw ⊢
  have mt : ∀ (x : Cursor) (p : Position), Cur.moveTo S w1 ⟨q, x⟩ p = Cursor.moveTo S g x p >>= fun r => .ok (r.1, ⟨q, r.2⟩, w1) :=
    fun x p => Shared.moveTo_eq (c := ⟨q, x⟩) hw rfl p
  simp only [Cur.new, hat, mt]
  have key : ∀ (x : Cursor), ∃ b' w', (do
      let w ← Shared.Buf.report w1 { b with data := q, cursor := ⟨q, x⟩ } Position.new
      Except.ok (({ b with data := q, cursor := ⟨q, x⟩ } : Shared.Buf ξ), w) : R (Shared.Buf ξ × World ξ)) = .ok (b', w') ∧
      Uses w' b' (.free ({ a with data := g, cursor := x }.report Position.new).data) ({ a with data := g, cursor := x }.report Position.new) := by
    intro x
    simp only [Shared.Buf.report, h.callback, Buf.report, h.silent, Bool.false_eq_true, if_false, Except.ok_bind']
    exact ⟨_, _, rfl, hw, rfl, rfl, h.history, h.group, rfl, rfl⟩
  cases h1 : Cursor.moveTo S g (Cursor.new ⟨0, 0⟩) a.cursor.position with
  | error e => rw [h1] at ha; cases ha
  | ok r =>
    obtain ⟨ok, c1⟩ := r
    rw [h1] at ha
    simp only [Except.ok_bind'] at ha ⊢
    cases ok with
    | true =>
      simp only [Bool.not_true, Bool.false_eq_true, if_false] at ha ⊢
      obtain rfl := Except.ok.inj ha
      exact key c1
    | false =>
      simp only [Bool.not_false, if_true, mt] at ha ⊢
      cases h2 : Cursor.moveTo S g c1 ⟨a.cursor.position.line, 0⟩ with
      | error e => rw [h2] at ha; cases ha
      | ok r2 =>
        obtain ⟨ok2, c2⟩ := r2
        rw [h2] at ha
        simp only [Except.ok_bind'] at ha ⊢
        obtain rfl := Except.ok.inj ha
        exact key c2

theorem Ends.blocked {α : Type} {c : Cell} {stop renew : Bool} {x : R (α × World ξ)} {out : α → Shared.Buf ξ} {rest : α → Prop} {a : Buf}
    (hc : kind c ≠ .free ∧ stop = true) (h : x = .error .borrow) : Ends c stop renew x out rest a := by
  unfold Ends; rw [if_pos hc]; exact h

theorem Ends.returns {α : Type} {c : Cell} {stop renew : Bool} {x : R (α × World ξ)} {out : α → Shared.Buf ξ} {rest : α → Prop} {a : Buf}
    (hc : ¬(kind c ≠ .free ∧ stop = true)) (h : ∃ r w c', x = .ok (r, w) ∧ Uses w (out r) c' a ∧ kind c' = (if renew then .free else kind c) ∧ rest r) :
    Ends c stop renew x out rest a := by
  unfold Ends; rw [if_neg hc]; exact h

/-- The result of `runOp`, as a pair. -/
def swap {α : Type} (x : R (Shared.Buf ξ × α × World ξ)) : R ((Shared.Buf ξ × α) × World ξ) := x >>= fun r => .ok ((r.1, r.2.1), r.2.2)

theorem runOp_ends {w : World ξ} {b : Shared.Buf ξ} {c : Cell} {a : Buf} {r : Buf × SOp} (h : Uses w b c a) (op : SOp)
    (ha : Buf.runOp S A a op = .ok r) :
    Ends c (!fresh op) (fresh op) (swap (Shared.Buf.runOp S A w b op)) Prod.fst (fun x => x.2 = r.2) r.1 := by
  cases op with
  | insert s p =>
    simp only [Buf.runOp] at ha
    by_cases hk : kind c = .free
    · refine .returns (by simp [hk]) ?_
      cases hd : a.data.insert S A s p with
      | error e => rw [hd] at ha; cases ha
      | ok d =>
        rw [hd, Except.ok_bind'] at ha
        obtain rfl := Except.ok.inj ha
        obtain ⟨h1, h2⟩ := h.write hk (fun g => g.insert S A s p) hd
        obtain ⟨h3, h4⟩ := h2.silentReport p
        refine ⟨(b, .insert s p), w.set b.data (.free d), .free d, by simp only [Shared.Buf.runOp, h1, Except.ok_bind', h3]; rfl, by rw [h4]; exact h2, ?_, rfl⟩
        simp [kind_free, hk]
    · exact .blocked (by simp [hk, fresh]) (by simp only [Shared.Buf.runOp, writes_blocked h.cell hk]; rfl)
  | delete x q =>
    simp only [Buf.runOp] at ha
    cases hr : a.data.read S q with
    | error e => rw [hr] at ha; cases ha
    | ok t =>
      rw [hr, Except.ok_bind'] at ha
      by_cases hx : kind c = .exclusive
      · exact .blocked (by simp [hx, fresh]) (by simp only [Shared.Buf.runOp, reads_blocked h.cell hx]; rfl)
      have hread : withRead w b.data (fun g w => do return (← g.read S q, w)) = .ok (t, w) := by
        have := Shared.withRead_pure h.cell (not_writing hx) (fun g => g.read S q) id
        rw [h.value, hr] at this
        exact this
      by_cases hk : kind c = .free
      · refine .returns (by simp [hk]) ?_
        cases hd : a.data.delete S q with
        | error e => rw [hd] at ha; cases ha
        | ok d =>
          rw [hd, Except.ok_bind'] at ha
          obtain rfl := Except.ok.inj ha
          obtain ⟨h1, h2⟩ := h.write hk (fun g => g.delete S q) hd
          obtain ⟨h3, h4⟩ := h2.silentReport q.start
          refine ⟨(b, .delete t q), w.set b.data (.free d), .free d, by simp only [Shared.Buf.runOp, hread, h1, Except.ok_bind', h3]; rfl, by rw [h4]; exact h2, ?_, rfl⟩
          simp [kind_free, hk]
      · exact .blocked (by simp [hk, fresh]) (by simp only [Shared.Buf.runOp, hread, Except.ok_bind', writes_blocked h.cell hk]; rfl)
  | replace o n =>
    simp only [Buf.runOp] at ha
    cases hr : Buf.replaceContent S A n a with
    | error e => rw [hr] at ha; cases ha
    | ok a1 =>
      rw [hr, Except.ok_bind'] at ha
      obtain rfl := Except.ok.inj ha
      obtain ⟨b', w', h1, h2⟩ := replaceContent_ends h n hr
      exact .returns (by simp [fresh]) ⟨(b', .replace o n), w', _, by simp only [Shared.Buf.runOp, h1, Except.ok_bind']; rfl, h2, rfl, rfl⟩

theorem reverseOp_ends {w : World ξ} {b : Shared.Buf ξ} {c : Cell} {a a1 : Buf} (h : Uses w b c a) (op : SOp)
    (ha : Buf.reverseOp S A a op = .ok a1) :
    Ends c (!fresh op && !idle op) (fresh op) (Shared.Buf.reverseOp S A w b op) id (fun _ => True) a1 := by
  cases op with
  | insert s p =>
    simp only [Buf.reverseOp] at ha
    obtain ⟨q, hq⟩ := insertEnd_some (S := S) s p
    rw [hq, Except.ok_bind'] at ha
    dsimp only at ha
    by_cases hk : kind c = .free
    · refine .returns (by simp [hk]) ?_
      cases hd : a.data.delete S (Range.new p q) with
      | error e => rw [hd] at ha; cases ha
      | ok d =>
        simp only [hd, Except.ok_bind'] at ha
        obtain rfl := Except.ok.inj ha
        obtain ⟨h1, h2⟩ := h.write hk (fun g => g.delete S (Range.new p q)) hd
        obtain ⟨h3, h4⟩ := h2.silentReport p
        refine ⟨b, w.set b.data (.free d), .free d, by simp only [Shared.Buf.reverseOp, hq, h1, Except.ok_bind', h3], by rw [h4]; exact h2, ?_, trivial⟩
        simp [kind_free, hk]
    · exact .blocked (by simp [hk, fresh, idle]) (by simp only [Shared.Buf.reverseOp, hq, Except.ok_bind', writes_blocked h.cell hk]; rfl)
  | delete x q =>
    cases x with
    | none =>
      obtain rfl := Except.ok.inj ha
      exact .returns (by simp [idle]) ⟨b, w, c, rfl, h, by simp [fresh], trivial⟩
    | some t =>
      simp only [Buf.reverseOp] at ha
      by_cases hk : kind c = .free
      · refine .returns (by simp [hk]) ?_
        cases hd : a.data.insert S A t q.start with
        | error e => rw [hd] at ha; cases ha
        | ok d =>
          rw [hd, Except.ok_bind'] at ha
          obtain rfl := Except.ok.inj ha
          obtain ⟨h1, h2⟩ := h.write hk (fun g => g.insert S A t q.start) hd
          obtain ⟨h3, h4⟩ := h2.silentReport q.start
          refine ⟨b, w.set b.data (.free d), .free d, by simp only [Shared.Buf.reverseOp, h1, Except.ok_bind', h3], by rw [h4]; exact h2, ?_, trivial⟩
          simp [kind_free, hk]
      · exact .blocked (by simp [hk, fresh, idle]) (by simp only [Shared.Buf.reverseOp, writes_blocked h.cell hk]; rfl)
  | replace o n =>
    simp only [Buf.reverseOp] at ha
    obtain ⟨b', w', h1, h2⟩ := replaceContent_ends h o ha
    exact .returns (by simp [fresh]) ⟨b', w', _, by simp only [Shared.Buf.reverseOp, h1], h2, rfl, trivial⟩

theorem runAll_ends (ops : List SOp) {w : World ξ} {b : Shared.Buf ξ} {c : Cell} {a a1 : Buf} (h : Uses w b c a)
    (ha : Buf.runAll S A a ops = .ok a1) :
    Ends c (inPlace ops) (ops.any fresh) (Shared.Buf.runAll S A w b ops) id (fun _ => True) a1 := by
  induction ops generalizing w b c a with
  | nil =>
    obtain rfl := Except.ok.inj ha
    exact .returns (by simp [inPlace]) ⟨b, w, c, rfl, h, by simp, trivial⟩
  | cons op ops ih =>
    simp only [Buf.runAll] at ha
    cases hr : Buf.runOp S A a op with
    | error e => rw [hr] at ha; cases ha
    | ok r =>
      rw [hr, Except.ok_bind'] at ha
      have h1 := runOp_ends h op hr
      unfold Ends at h1
      by_cases hb : kind c ≠ .free ∧ (!fresh op) = true
      · rw [if_pos hb] at h1
        refine .blocked (by simpa [inPlace] using hb) ?_
        simp only [Shared.Buf.runAll]
        cases hx : Shared.Buf.runOp S A w b op with
        | error e => rw [hx] at h1; cases h1; rfl
        | ok y => rw [hx] at h1; cases h1
      · rw [if_neg hb] at h1
        obtain ⟨⟨b', o⟩, w', c', e1, e2, e3, _⟩ := h1
        have h2 := ih e2 ha
        have hx : Shared.Buf.runOp S A w b op = .ok (b', o, w') := by
          cases hx : Shared.Buf.runOp S A w b op with
          | error e => rw [hx] at e1; cases e1
          | ok y =>
            rw [hx] at e1
            obtain ⟨y1, y2, y3⟩ := y
            simp only [swap, Except.ok_bind', Except.ok.injEq, Prod.mk.injEq] at e1
            obtain ⟨⟨rfl, rfl⟩, rfl⟩ := e1
            rfl
        have hrest : Shared.Buf.runAll S A w b (op :: ops) = Shared.Buf.runAll S A w' b' ops := by
          simp only [Shared.Buf.runAll, hx, Except.ok_bind']
        rw [hrest]
        unfold Ends at h2 ⊢
        cases hf : fresh op with
        | true =>
          rw [hf, if_pos rfl] at e3
          rw [if_neg (by rw [e3]; simp)] at h2
          rw [if_neg (by simp [inPlace, hf])]
          obtain ⟨r2, w2, c2, k1, k2, k3, k4⟩ := h2
          refine ⟨r2, w2, c2, k1, k2, ?_, k4⟩
          rw [k3, e3]; simp [hf]
        | false =>
          rw [hf] at hb
          have hk : kind c = .free := by
            by_cases hk : kind c = .free
            · exact hk
            · exact absurd ⟨hk, rfl⟩ hb
          rw [hf, hk] at e3
          rw [if_neg (by rw [e3]; simp)] at h2
          rw [if_neg (by rw [hk]; simp)]
          obtain ⟨r2, w2, c2, k1, k2, k3, k4⟩ := h2
          refine ⟨r2, w2, c2, k1, k2, ?_, k4⟩
          rw [k3, e3, hk]; simp

theorem reverseAll_ends (ops : List SOp) {w : World ξ} {b : Shared.Buf ξ} {c : Cell} {a a1 : Buf} (h : Uses w b c a)
    (ha : Buf.reverseAll S A a ops = .ok a1) :
    Ends c (inPlace (ops.filter fun op => !idle op)) (ops.any fresh) (Shared.Buf.reverseAll S A w b ops) id (fun _ => True) a1 := by
  induction ops generalizing w b c a with
  | nil =>
    obtain rfl := Except.ok.inj ha
    exact .returns (by simp [inPlace]) ⟨b, w, c, rfl, h, by simp, trivial⟩
  | cons op ops ih =>
    simp only [Buf.reverseAll] at ha
    cases hr : Buf.reverseOp S A a op with
    | error e => rw [hr] at ha; cases ha
    | ok a2 =>
      rw [hr, Except.ok_bind'] at ha
      have h1 := reverseOp_ends h op hr
      unfold Ends at h1
      by_cases hb : kind c ≠ .free ∧ (!fresh op && !idle op) = true
      · rw [if_pos hb] at h1
        have hi : idle op = false := by
          have := hb.2; simp at this; exact this.2
        have hf : fresh op = false := by
          have := hb.2; simp at this; exact this.1
        refine .blocked ⟨hb.1, by simp [inPlace, hi, hf]⟩ ?_
        simp only [Shared.Buf.reverseAll, h1]
        rfl
      · rw [if_neg hb] at h1
        obtain ⟨b', w', c', e1, e2, e3, _⟩ := h1
        have h2 := ih e2 ha
        have hrest : Shared.Buf.reverseAll S A w b (op :: ops) = Shared.Buf.reverseAll S A w' b' ops := by
          simp only [Shared.Buf.reverseAll, e1, Except.ok_bind']
        rw [hrest]
        have hfi : idle op = true → fresh op = false := by cases op <;> simp [idle, fresh]
        unfold Ends at h2 ⊢
        cases hi : idle op with
        | true =>
          have hf := hfi hi
          rw [hf] at e3
          have hfil : (op :: ops).filter (fun op => !idle op) = ops.filter fun op => !idle op := by simp [hi]
          rw [hfil, List.any_cons, hf, Bool.false_or]
          have e3' : kind c' = kind c := e3
          rw [e3'] at h2
          exact h2
        | false =>
          have hfil : (op :: ops).filter (fun op => !idle op) = op :: ops.filter fun op => !idle op := by simp [hi]
          rw [hfil]
          cases hf : fresh op with
          | true =>
            rw [hf, if_pos rfl] at e3
            rw [if_neg (by rw [e3]; simp)] at h2
            rw [if_neg (by simp [inPlace, hf])]
            obtain ⟨r2, w2, c2, k1, k2, k3, k4⟩ := h2
            refine ⟨r2, w2, c2, k1, k2, ?_, k4⟩
            rw [k3, e3]; simp [hf]
          | false =>
            rw [hf, hi] at hb
            have hk : kind c = .free := by
              by_cases hk : kind c = .free
              · exact hk
              · exact absurd ⟨hk, rfl⟩ hb
            rw [hf, hk] at e3
            rw [if_neg (by rw [e3]; simp)] at h2
            rw [if_neg (by rw [hk]; simp)]
            obtain ⟨r2, w2, c2, k1, k2, k3, k4⟩ := h2
            refine ⟨r2, w2, c2, k1, k2, ?_, k4⟩
            rw [k3, e3, hk]; simp

theorem runAny_ends (op : Op) {w : World ξ} {b : Shared.Buf ξ} {c : Cell} {a a1 : Buf} (h : Uses w b c a)
    (ha : Buf.runAny S A a op = .ok a1) :
    Ends c (inPlace (edits op)) ((edits op).any fresh) (Shared.Buf.runAny S A w b op) id (fun _ => True) a1 := by
  cases op with
  | simple op =>
    have e1 : Buf.runAll S A a [op] = .ok a1 := by
      simp only [Buf.runAny] at ha
      simp only [Buf.runAll]
      exact ha
    have e2 : Shared.Buf.runAny S A w b (.simple op) = Shared.Buf.runAll S A w b [op] := rfl
    rw [e2]
    exact runAll_ends [op] h e1
  | group ops => exact runAll_ends ops h ha

theorem reverseAny_ends (op : Op) {w : World ξ} {b : Shared.Buf ξ} {c : Cell} {a a1 : Buf} (h : Uses w b c a)
    (ha : Buf.reverseAny S A a op = .ok a1) :
    Ends c (inPlace ((edits op).reverse.filter fun op => !idle op)) (((edits op).reverse.filter fun op => !idle op).any fresh)
      (Shared.Buf.reverseAny S A w b op) id (fun _ => True) a1 := by
  rw [any_fresh]
  cases op with
  | simple op =>
    have e1 : Buf.reverseAll S A a [op] = .ok a1 := by
      simp only [Buf.reverseAny] at ha
      simp only [Buf.reverseAll, ha]
      rfl
    have e2 : Shared.Buf.reverseAny S A w b (.simple op) = Shared.Buf.reverseAll S A w b [op] := by
      simp only [Shared.Buf.reverseAny, Shared.Buf.reverseAll]
      cases Shared.Buf.reverseOp S A w b op <;> rfl
    rw [e2]
    exact reverseAll_ends [op] h e1
  | group ops => exact reverseAll_ends ops.reverse h ha

theorem Uses.store {w : World ξ} {b : Shared.Buf ξ} {c : Cell} {a : Buf} (h : Uses w b c a) (op : SOp) : Uses w (b.store op) c (a.store op) := by
  unfold Shared.Buf.store Buf.store
  rw [h.group]
  cases a.group with
  | none => exact ⟨h.cell, h.value, h.shared, by simp [h.history], rfl, h.callback, h.silent⟩
  | some ops => exact ⟨h.cell, h.value, h.shared, h.history, rfl, h.callback, h.silent⟩

/-- A call in the model with pointers. -/
def Result (c : Cell) (a : Buf) (cmd : Cmd) (x : R (Shared.Buf ξ × World ξ)) (a1 : Buf) : Prop :=
  if blocked (kind c) a cmd then x = .error .borrow
  else ∃ b w c', x = .ok (b, w) ∧ Uses w b c' a1 ∧ kind c' = if renews a cmd then .free else kind c

theorem edit_ends {w : World ξ} {b : Shared.Buf ξ} {c : Cell} {a a1 : Buf} (h : Uses w b c a) (op : SOp)
    (ha : (Buf.runOp S A a op >>= fun r => (return r.1.store r.2 : R Buf)) = .ok a1) :
    Ends c (!fresh op) (fresh op) (Shared.Buf.runOp S A w b op >>= fun r => (.ok (r.1.store r.2.1, r.2.2) : R (Shared.Buf ξ × World ξ))) id
      (fun _ => True) a1 := by
  cases hr : Buf.runOp S A a op with
  | error e => rw [hr] at ha; cases ha
  | ok r =>
    rw [hr, Except.ok_bind'] at ha
    obtain rfl := Except.ok.inj ha
    have h1 := runOp_ends h op hr
    unfold Ends at h1 ⊢
    split at h1
    · rename_i hb
      rw [if_pos hb]
      cases hx : Shared.Buf.runOp S A w b op with
      | error e => rw [hx] at h1; cases h1; rfl
      | ok y => rw [hx] at h1; cases h1
    · rename_i hb
      rw [if_neg hb]
      obtain ⟨⟨b', o⟩, w', c', e1, e2, e3, rfl⟩ := h1
      cases hx : Shared.Buf.runOp S A w b op with
      | error e => rw [hx] at e1; cases e1
      | ok y =>
        rw [hx] at e1
        obtain ⟨y1, y2, y3⟩ := y
        simp only [swap, Except.ok_bind', Except.ok.injEq, Prod.mk.injEq] at e1
        obtain ⟨⟨rfl, rfl⟩, rfl⟩ := e1
        exact ⟨_, _, c', rfl, e2.store _, e3, trivial⟩

/-- From an edit to a call. -/
theorem Ends.result {c : Cell} {a a1 : Buf} {cmd : Cmd} {x : R (Shared.Buf ξ × World ξ)} {stop renew : Bool}
    (h : Ends c stop renew x id (fun _ => True) a1) (h1 : writes a cmd = stop) (h2 : reads a cmd = false) (h3 : renews a cmd = renew) :
    Result c a cmd x a1 := by
  subst h1 h3
  have hb : Guarded.blocked (kind c) a cmd = true ↔ kind c ≠ .free ∧ writes a cmd = true := by
    cases kind c <;> simp [Guarded.blocked, h2]
  unfold Ends at h
  unfold Result
  by_cases hc : kind c ≠ .free ∧ writes a cmd = true
  · rw [if_pos hc] at h
    rw [if_pos (hb.mpr hc)]
    exact h
  · rw [if_neg hc] at h
    rw [if_neg (fun h' => hc (hb.mp h'))]
    obtain ⟨r, w, c', e1, e2, e3, _⟩ := h
    exact ⟨r, w, c', e1, e2, e3⟩

theorem text_uses {w : World ξ} {b : Shared.Buf ξ} {c : Cell} {a : Buf} {t : Text} (h : Uses w b c a) (hx : kind c ≠ .exclusive)
    (ht : a.data.toStr = .ok t) : Shared.Buf.text w b = .ok (t, w) := by
  have := Shared.withRead_pure h.cell (not_writing hx) (fun g => g.toStr) id
  rw [h.value, ht] at this
  exact this

theorem replace_result {w : World ξ} {b : Shared.Buf ξ} {c : Cell} {a a1 : Buf} (h : Uses w b c a) (t : Text)
    (ha : Buf.replace S A a t = .ok a1) : Result c a (.replace t) (Shared.Buf.replace S A w b t) a1 := by
  unfold Buf.replace at ha
  unfold Shared.Buf.replace
  by_cases hx : kind c = .exclusive
  · unfold Result
    rw [hx, if_pos (by simp [blocked, reads])]
    unfold Shared.Buf.text
    rw [reads_blocked h.cell hx]
    rfl
  · have hnb : blocked (kind c) a (.replace t) = false := by
      cases hk : kind c <;> simp_all [blocked, writes]
    unfold Result
    rw [if_neg (by simp [hnb])]
    cases hs : a.data.toStr with
    | error e => rw [hs] at ha; cases ha
    | ok u =>
      rw [hs, Except.ok_bind'] at ha
      have htx := text_uses h hx hs
      simp only [htx, Except.ok_bind']
      by_cases hu : t = u
      · rw [if_pos hu] at ha
        obtain rfl := Except.ok.inj ha
        rw [if_pos hu]
        exact ⟨b, w, c, rfl, h, by simp [renews, hs, hu]⟩
      · rw [if_neg hu] at ha
        rw [if_neg hu]
        have h1 := edit_ends h (.replace u t) ha
        unfold Ends at h1
        rw [if_neg (by simp [fresh])] at h1
        obtain ⟨r, w', c', e1, e2, e3, _⟩ := h1
        exact ⟨r, w', c', e1, e2, by rw [e3]; simp [renews, hs, hu, fresh]⟩

theorem move_blocked {w : World ξ} {b : Shared.Buf ξ} {c : Cell} {a : Buf} (h : Uses w b c a) (hx : kind c = .exclusive) (m : Cursor.Move) :
    Shared.Cur.move S w b.cursor m = if looks a m then .error .borrow else .ok (b.cursor, w) := by
  have hd : w.cells[b.cursor.data]? = some c := by rw [h.shared]; exact h.cell
  have hat : b.cursor.at_ = a.cursor := by rw [h.shared]
  have mt : ∀ p, Shared.Cur.moveTo S w b.cursor p = .error .borrow := fun p => by
    unfold Shared.Cur.moveTo; rw [reads_blocked hd hx]; rfl
  cases m with
  | «to» p => simp only [Shared.Cur.move, mt, looks]; rfl
  | up =>
    simp only [Shared.Cur.move, Shared.Cur.moveUp, hat, looks]
    by_cases h0 : a.cursor.position.line = 0
    · simp [h0]
    · simp only [h0, if_false, subU]
      rw [if_pos (by omega)]
      simp only [Except.ok_bind', Shared.Cur.moveToLine, mt]
      simp [h0]
      rfl
  | down => simp only [Shared.Cur.move, Shared.Cur.moveDown, Shared.Cur.moveToLine, mt, looks]; rfl
  | left =>
    simp only [Shared.Cur.move, Shared.Cur.moveLeft, hat, looks]
    by_cases h0 : a.cursor.position.offset = 0
    · simp [h0]
    · simp only [h0, if_false, subU]
      rw [if_pos (by omega)]
      simp only [Except.ok_bind', mt]
      simp [h0]
      rfl
  | right => simp only [Shared.Cur.move, Shared.Cur.moveRight, mt, looks]; rfl
  | startOfLine => simp only [Shared.Cur.move, Shared.Cur.moveToStartOfLine, mt, looks]; rfl
  | endOfLine => simp only [Shared.Cur.move, Shared.Cur.moveToEndOfLine, reads_blocked hd hx, looks]; rfl
  | lastLine => simp only [Shared.Cur.move, Shared.Cur.moveToLastLine, reads_blocked hd hx, looks]; rfl
  | firstLine => simp only [Shared.Cur.move, Shared.Cur.moveToFirstLine, reads_blocked hd hx, looks]; rfl

theorem move_idle {g : GapBuffer} {a : Buf} (m : Cursor.Move) (h : looks a m = false) : Cursor.move S g a.cursor m = .ok a.cursor := by
  cases m <;> simp [looks] at h
  · simp only [Cursor.move, Cursor.moveUp, h, if_true]; rfl
  · simp only [Cursor.move, Cursor.moveLeft, h, if_true]; rfl

theorem undo_form_cells (w : World ξ) (b : Shared.Buf ξ) (c : Cell) (a : Buf) (h : Uses w b c a) :
    ∃ b', Uses w b' c { a with group := none, history := undoneHistory a } ∧
    ((undone a = none ∧ Shared.Buf.undo S A w b = .ok (b', w) ∧ Buf.undo S A a = .ok { a with group := none, history := undoneHistory a }) ∨
    ∃ op, undone a = some op ∧ Shared.Buf.undo S A w b = Shared.Buf.reverseAny S A w b' op ∧
      Buf.undo S A a = Buf.reverseAny S A { a with group := none, history := undoneHistory a } op) := by
  obtain ⟨d, cu, ⟨prev, next, mark⟩, grp, cb, log⟩ := a
  obtain ⟨bd, bc, bh, bg, bcb⟩ := b
  obtain ⟨h1, h2, h3, h4, h5, h6, h7⟩ := h
  dsimp only at h1 h2 h3 h4 h5 h6 h7
  subst h3 h4 h6 h7
  subst h5
  cases bg with
  | none => cases prev with
    | nil => exact ⟨_, ⟨h1, h2, rfl, rfl, rfl, rfl, rfl⟩, Or.inl ⟨rfl, rfl, rfl⟩⟩
    | cons op ops => exact ⟨⟨_, _, _, none, none⟩, ⟨h1, h2, rfl, rfl, rfl, rfl, rfl⟩, Or.inr ⟨op, rfl, rfl, rfl⟩⟩
  | some grp => cases grp with
    | nil => cases prev with
      | nil => exact ⟨⟨_, _, _, none, none⟩, ⟨h1, h2, rfl, rfl, rfl, rfl, rfl⟩, Or.inl ⟨rfl, rfl, rfl⟩⟩
      | cons op ops => exact ⟨⟨_, _, _, none, none⟩, ⟨h1, h2, rfl, rfl, rfl, rfl, rfl⟩, Or.inr ⟨op, rfl, rfl, rfl⟩⟩
    | cons o os => exact ⟨⟨_, _, _, none, none⟩, ⟨h1, h2, rfl, rfl, rfl, rfl, rfl⟩, Or.inr ⟨.group (o :: os), rfl, rfl, rfl⟩⟩

theorem exec_result (f : Shared.Callback ξ) {w : World ξ} {b : Shared.Buf ξ} {c : Cell} {a a1 : Buf} (h : Uses w b c a) (cmd : Cmd)
    (hcmd : cmd ≠ .setCallback true) (ha : Buf.exec S A a cmd = .ok a1) : Result c a cmd (Shared.Buf.exec S A f w b cmd) a1 := by
  have hat : b.cursor.at_ = a.cursor := by rw [h.shared]
  cases cmd with
  | insert s =>
    have := edit_ends h (.insert s a.cursor.position) ha
    simp only [Shared.Buf.exec, Shared.Buf.insert, hat]
    exact this.result rfl rfl rfl
  | deleteRange p q =>
    have := edit_ends h (.delete none (Range.new p q)) ha
    exact this.result rfl rfl rfl
  | delete =>
    simp only [Buf.exec, Buf.delete] at ha
    cases hb : a.data.inBounds S ⟨a.cursor.position.line, a.cursor.position.offset + 1⟩ with
    | error e => rw [hb] at ha; cases ha
    | ok v =>
      rw [hb, Except.ok_bind'] at ha
      simp only [Shared.Buf.exec, Shared.Buf.delete, hat]
      by_cases hx : kind c = .exclusive
      · unfold Result
        rw [hx, if_pos (by simp [blocked, writes]), reads_blocked h.cell hx]
        rfl
      · have hread := Shared.withRead_pure h.cell (not_writing hx)
          (fun g => g.inBounds S ⟨a.cursor.position.line, a.cursor.position.offset + 1⟩) id
        rw [h.value, hb] at hread
        have hread' : withRead w b.data (fun g w => do return (← g.inBounds S ⟨a.cursor.position.line, a.cursor.position.offset + 1⟩, w)) = .ok (v, w) := hread
        rw [hread', Except.ok_bind']
        have := edit_ends h (.delete none (Range.new a.cursor.position _)) ha
        exact this.result rfl rfl rfl
  | replace t => exact replace_result h t ha
  | reload t =>
    simp only [Buf.exec, Buf.reloadWith] at ha
    cases hr : Buf.replace S A a t with
    | error e => rw [hr] at ha; cases ha
    | ok a2 =>
      rw [hr, Except.ok_bind'] at ha
      obtain rfl := Except.ok.inj ha
      have h1 := replace_result h t hr
      simp only [Shared.Buf.exec, Shared.Buf.reloadWith]
      unfold Result at h1 ⊢
      have e : blocked (kind c) a (.reload t) = blocked (kind c) a (.replace t) := by cases kind c <;> rfl
      have e' : renews a (.reload t) = renews a (.replace t) := rfl
      rw [e, e']
      split at h1
      · rename_i hb; rw [if_pos hb, h1]; rfl
      · rename_i hb
        rw [if_neg hb]
        obtain ⟨b2, w2, c2, k1, k2, k3⟩ := h1
        rw [k1]
        exact ⟨_, _, c2, rfl, ⟨k2.cell, k2.value, k2.shared, by simp [k2.history, Buf.setMark], k2.group, k2.callback, k2.silent⟩, k3⟩
  | undo =>
    simp only [Buf.exec] at ha
    simp only [Shared.Buf.exec]
    obtain ⟨b', hu, h1 | ⟨op, h1, h2, h3⟩⟩ := undo_form_cells (S := S) (A := A) w b c a h
    · obtain ⟨h1, h2, h3⟩ := h1
      rw [h3] at ha
      obtain rfl := Except.ok.inj ha
      have ht : takenBack a = [] := by simp [takenBack, h1]
      unfold Result
      rw [if_neg (by cases kind c <;> simp [blocked, reads, writes, ht, inPlace])]
      exact ⟨b', w, c, h2, hu, by simp [renews, ht]⟩
    · rw [h3] at ha
      rw [h2]
      have ht : takenBack a = (edits op).reverse.filter fun op => !idle op := by simp [takenBack, h1]
      exact (reverseAny_ends op hu ha).result (by simp [writes, ht]) rfl (by simp only [renews, ht])
  | redo =>
    simp only [Buf.exec] at ha
    simp only [Shared.Buf.exec]
    obtain ⟨d, cu, ⟨prev, next, mark⟩, grp, cb, log⟩ := a
    obtain ⟨bd, bc, bh, bg, bcb⟩ := b
    obtain ⟨h1, h2, h3, h4, h5, h6, h7⟩ := h
    dsimp only at h1 h2 h3 h4 h5 h6 h7
    subst h3 h4 h5 h6 h7
    cases next with
    | nil =>
      obtain rfl := Except.ok.inj ha
      unfold Result
      rw [if_neg (by cases kind c <;> simp [blocked, reads, writes, madeAgain, inPlace])]
      exact ⟨_, w, c, rfl, ⟨h1, h2, rfl, rfl, rfl, rfl, rfl⟩, by simp [renews, madeAgain]⟩
    | cons op ops =>
      have hu : Uses w ⟨bd, ⟨bd, cu⟩, ⟨op :: prev, ops, mark⟩, bg, none⟩ c ⟨d, cu, ⟨op :: prev, ops, mark⟩, bg, false, log⟩ :=
        ⟨h1, h2, rfl, rfl, rfl, rfl, rfl⟩
      exact (runAny_ends op hu ha).result rfl rfl rfl
  | startGroup =>
    obtain rfl := Except.ok.inj ha
    unfold Result
    rw [if_neg (by cases kind c <;> simp [blocked, reads, writes])]
    refine ⟨_, w, c, rfl, ?_, by simp [renews]⟩
    unfold Shared.Buf.startGroup Buf.startGroup
    rw [h.group]
    cases hg : a.group with
    | none => exact ⟨h.cell, h.value, h.shared, h.history, rfl, h.callback, h.silent⟩
    | some x => exact h
  | endGroup =>
    obtain rfl := Except.ok.inj ha
    unfold Result
    rw [if_neg (by cases kind c <;> simp [blocked, reads, writes])]
    refine ⟨_, w, c, rfl, ?_, by simp [renews]⟩
    unfold Shared.Buf.endGroup Buf.endGroup
    rw [h.group]
    cases hg : a.group with
    | none => exact h
    | some x =>
      dsimp only
      split
      · exact ⟨h.cell, h.value, h.shared, h.history, rfl, h.callback, h.silent⟩
      · exact ⟨h.cell, h.value, h.shared, by simp [h.history], rfl, h.callback, h.silent⟩
  | move m =>
    simp only [Buf.exec] at ha
    cases hr : Cursor.move S a.data a.cursor m with
    | error e => rw [hr] at ha; cases ha
    | ok cu =>
      rw [hr, Except.ok_bind'] at ha
      obtain rfl := Except.ok.inj ha
      simp only [Shared.Buf.exec]
      unfold Result
      by_cases hx : kind c = .exclusive
      · rw [move_blocked h hx m]
        cases hl : looks a m with
        | true =>
          rw [if_pos (by simp [hx, blocked, reads, hl]), if_pos rfl]
          rfl
        | false =>
          rw [if_neg (by simp [hx, blocked, reads, writes, hl]), if_neg (by simp)]
          rw [move_idle m hl] at hr
          obtain rfl := Except.ok.inj hr
          exact ⟨_, w, c, rfl, ⟨h.cell, h.value, h.shared, h.history, h.group, h.callback, h.silent⟩, by simp [renews]⟩
      · rw [if_neg (by cases hk : kind c <;> simp_all [blocked, writes])]
        have hd : w.cells[b.cursor.data]? = some c := by rw [h.shared]; exact h.cell
        rw [Shared.move_eq hd (not_writing hx), h.value, hat, hr]
        exact ⟨_, w, c, rfl, ⟨h.cell, h.value, by rw [h.shared], h.history, h.group, h.callback, h.silent⟩, by simp [renews]⟩
  | setCursor p =>
    obtain rfl := Except.ok.inj ha
    unfold Result
    rw [if_neg (by cases kind c <;> simp [blocked, reads, writes])]
    exact ⟨_, w, c, rfl, ⟨h.cell, h.value, by rw [h.shared], h.history, h.group, h.callback, h.silent⟩, by simp [renews]⟩
  | setCallback v =>
    cases v with
    | true => exact absurd rfl hcmd
    | false =>
      obtain rfl := Except.ok.inj ha
      unfold Result
      rw [if_neg (by cases kind c <;> simp [blocked, reads, writes])]
      exact ⟨_, w, c, rfl, ⟨h.cell, h.value, h.shared, h.history, h.group, rfl, rfl⟩, by simp [renews]⟩
  | saved =>
    obtain rfl := Except.ok.inj ha
    unfold Result
    rw [if_neg (by cases kind c <;> simp [blocked, reads, writes])]
    exact ⟨_, w, c, rfl, ⟨h.cell, h.value, h.shared, by simp [h.history, Buf.setMark], h.group, h.callback, h.silent⟩, by simp [renews]⟩

end Scribe.Guarded
