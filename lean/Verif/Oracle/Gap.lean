import Verif.Oracle.Basic
import Verif.Model.LineIterator
/-! # Executable forms of C01–C11, C26–C29, C32–C35, C45 -/
namespace Scribe.Oracle
open Spec Props GapBuffer

variable (S : Segmenter) (A A' : Alloc)

/-- `v` is a contiguous part of `w`. -/
def infix? (v w : Text) : Bool := (List.range (w.length + 1)).any fun n => v.isPrefixOf (w.drop n)

/-- C01 -/
def o_C01_no_panic (k : Nat) (t : Text) (cs : List Call) : Bool := okAnd (run S A (GapBuffer.new A k t) cs) fun _ => true

/-- C02: the texts before and after the gap are decoded from the bytes. -/
def o_C02_contents (k : Nat) (t : Text) (cs : List Call) (p q : Position) : Bool :=
  okImp (run S A (GapBuffer.new A k t) cs) fun (_, g) =>
    let pre := lossy (g.data.take g.gapStart)
    let post := lossy (g.data.drop (g.gapStart + g.gapLength))
    decide (g.data.take g.gapStart = enc pre) && decide (g.data.drop (g.gapStart + g.gapLength) = enc post) &&
    decide (g.gapStart + g.gapLength ≤ g.data.length) &&
    decide (toStr g = .ok (pre ++ post)) &&
    (pre ++ post).all (fun c => t.contains c || (inserted cs).any fun s => s.contains c) &&
    okImp (read S g (Range.new p q)) fun v => someImp v fun v => infix? v (pre ++ post)

def o_C03_insert (g : GapBuffer) (t s : Text) (p : Position) : Bool :=
  someImp (place? (S.segs t) p) fun (x, y) =>
    decide (t = x ++ y) && okAnd (insert S A g s p) fun g' => decide (toStr g' = .ok (x ++ s ++ y))

def o_C03_insert_again (g : GapBuffer) (t s : Text) (p : Position) : Bool :=
  someImp (place? (S.segs t) p) fun (x, y) =>
    imp (S.segs (x ++ s ++ y) = S.segs x ++ S.segs s ++ S.segs y)
      (okAnd (insert S A g s p) fun g' => holdsB S g' (x ++ s ++ y))

def o_C04_insert_out_of_bounds (g : GapBuffer) (t s : Text) (p : Position) : Bool :=
  imp (place? (S.segs t) p = none)
    (okAnd (insert S A g s p) fun g' => decide (toStr g' = .ok t) && holdsB S g' t)

def o_C05_delete (g : GapBuffer) (t : Text) (p q : Position) : Bool :=
  imp (AtOrBefore p q) <| someImp (place? (S.segs t) p) fun (x, _) => someImp (place? (S.segs t) q) fun (x', y') =>
    okAnd (delete S g (Range.new p q)) fun g' =>
      decide (toStr g' = .ok (x ++ y')) && decide (t = x ++ x'.drop x.length ++ y') && decide (x' = x ++ x'.drop x.length)

def o_C05_delete_swapped (g : GapBuffer) (p q : Position) : Bool :=
  decide (delete S g (Range.new p q) = delete S g (Range.new q p))

def o_C05_delete_again (g : GapBuffer) (t : Text) (p q : Position) : Bool :=
  imp (AtOrBefore p q) <| someImp (place? (S.segs t) p) fun (x, _) => someImp (place? (S.segs t) q) fun (_, y') =>
    imp (S.segs (x ++ y') = S.segs x ++ S.segs y')
      (okAnd (delete S g (Range.new p q)) fun g' => holdsB S g' (x ++ y'))

def o_C06_delete_clips (g : GapBuffer) (t : Text) (p q : Position) : Bool :=
  imp (AtOrBefore p q) <|
    match place? (S.segs t) p, place? (S.segs t) q with
    | none, _ => decide (delete S g (Range.new p q) = .ok g)
    | some (x, _), none =>
      okAnd (delete S g (Range.new p q)) fun g' =>
        match place? (S.segs t) ⟨q.line + 1, 0⟩ with
        | some (_, v) => decide (toStr g' = .ok (x ++ v)) && (x ++ v).isSublist t
        | none => decide (toStr g' = .ok x)
    | _, _ => true

def o_C07_read (g : GapBuffer) (t : Text) (p q : Position) : Bool :=
  imp (AtOrBefore p q) <|
    match place? (S.segs t) p, place? (S.segs t) q with
    | some (x, y), some (x', y') =>
      okAnd (read S g (Range.new p q)) fun r => someAnd r fun m => decide (x' = x ++ m) && decide (y = m ++ y')
    | _, _ => decide (read S g (Range.new p q) = .ok none)

def o_C08_in_bounds (g : GapBuffer) (t : Text) (p : Position) : Bool :=
  decide (inBounds S g p = .ok (place? (S.segs t) p).isSome)

def o_C08_in_bounds_lines (g : GapBuffer) (t : Text) (p : Position) : Bool :=
  imp ('\r' ∉ t) <| okAnd (inBounds S g p) fun b =>
    b == someAnd (splitNl t)[p.line]? fun line => decide (p.offset ≤ (S.segs line).length)

def o_C09_gap_unobservable (g g' : GapBuffer) (t : Text) (cs : List Call) : Bool :=
  imp (CleanCalls S.segs t cs) <|
    okAnd (run S A g cs) fun r => okAnd (run S A' g' cs) fun r' =>
      decide (r.1 = (runText S.segs t cs).1) && decide (r'.1 = (runText S.segs t cs).1) &&
      decide (toStr r.2 = .ok (runText S.segs t cs).2) && decide (toStr r'.2 = .ok (runText S.segs t cs).2)

def o_C10_positions_ordered (g : GapBuffer) (t : Text) (p q : Position) (n : Nat) : Bool :=
  (imp (Before p q) <|
    someImp (place? (S.segs t) p) fun (x, _) => someImp (place? (S.segs t) q) fun (x', _) =>
      okAnd (read S g (Range.new p q)) fun r => someAnd r fun m => decide (m ≠ []) && decide (x' = x ++ m)) &&
  decide (inBounds S g (endPos ((S.segs t).take n)) = .ok true)

def o_C11_read_back (g : GapBuffer) (t s : Text) (p q : Position) : Bool :=
  someImp (place? (S.segs t) p) fun (x, y) =>
    imp (S.segs (x ++ s ++ y) = S.segs x ++ S.segs s ++ S.segs y) <|
    okAnd (insert S A g s p) fun g' =>
      decide (read S g' (Range.new p (advance p (S.segs s))) = .ok (some s)) &&
      (imp (AtOrBefore p q) <| someImp (place? (S.segs t) q) fun (xu, v) =>
        let u := xu.drop x.length
        imp (xu = x ++ u)
          (decide (place? (S.segs (x ++ s ++ y)) (advance p (S.segs s ++ S.segs u)) = some (x ++ s ++ u, v))))

def o_C45_contiguous (g : GapBuffer) (s : Text) (p q : Position) : Bool :=
  okAnd (toStr g) fun u =>
    (okAnd (insert S A g s p) fun g' => okAnd (toStr g') fun u' =>
      decide (u' = u) || (List.range (u.length + 1)).any fun n => decide (u' = u.take n ++ s ++ u.drop n)) &&
    (okAnd (delete S g (Range.new p q)) fun g' => okAnd (toStr g') fun u' =>
      (List.range (u.length + 1)).any fun n => decide (u' = u.take n ++ u.drop (n + (u.length - u'.length))))

/-! ## Positions -/

def o_C32_position_order (a b c : Position) : Bool :=
  decide (a.cmp b = .eq ↔ a = b) && decide (a.cmp b = .lt ↔ Before a b) && decide (a.cmp b = .gt ↔ Before b a) &&
    decide (a.cmp b = (b.cmp a).swap) && decide (a.cmp b = .lt → b.cmp c = .lt → a.cmp c = .lt)

def o_C32_range (p q x : Position) : Bool :=
  decide (AtOrBefore (Range.new p q).start (Range.new p q).stop) &&
  decide (((Range.new p q).start = p ∧ (Range.new p q).stop = q) ∨ ((Range.new p q).start = q ∧ (Range.new p q).stop = p)) &&
  decide (Range.new p q = Range.new q p) &&
  decide ((Range.new p q).includes x = true ↔ AtOrBefore (Range.new p q).start x ∧ Before x (Range.new p q).stop)

def o_C33_line_range (s e l : Nat) (p : Position) : Bool :=
  let r := LineRange.new s e
  decide (r.start ≤ r.stop ∧ r.start = min s e ∧ r.stop = max s e ∧
    (r.includes l = true ↔ r.start ≤ l ∧ l < r.stop) ∧
    (r.toRange.includes p = true ↔ r.start ≤ p.line ∧ p.line < r.stop) ∧
    (r.toRange.includes p = r.includes p.line) ∧
    (r.toInclusiveRange.includes p = true ↔ r.start ≤ p.line ∧ p.line ≤ r.stop) ∧
    (r.toInclusiveRange.start = ⟨r.start, 0⟩ ∧ r.toInclusiveRange.stop = ⟨r.stop + 1, 0⟩))

def o_C34_distance (p : Position) (d : Distance) (a b : Text) : Bool :=
  decide (p.add d = p.addAssign d ∧ AtOrBefore p (p.add d) ∧
    p.add (.ofStr (a ++ b)) = (p.add (.ofStr a)).add (.ofStr b) ∧
    (Distance.ofStr a).lines = countNl a ∧ p.add (.ofStr []) = p)

def o_C34_distance_is_extent (p : Position) (s : Text) : Bool :=
  imp (∀ c ∈ s, c.utf8Size = 1) <| imp (S.segs s = s.map fun c => [c]) <|
    decide (p.add (.ofStr s) = advance p (S.segs s))

/-- The lines are computed here from the calls. -/
def o_C35_line_iterator (t : Text) (extra : Nat) : Bool :=
  let n := t.count '\n' + 1
  okAnd (LineIter.run (n + extra) (LineIter.new t)) fun r =>
    decide (r.drop n = List.replicate extra none) &&
    decide ((r.take n).map (fun x => x.map (·.1)) = (List.range n).map some) &&
    decide (((r.take n).map fun x => (x.map (·.2)).getD []).flatten = t) &&
    (List.range n).all fun i =>
      let l := (r[i]?.join.map (·.2)).getD []
      if i + 1 < n then decide (l.getLast? = some '\n') && decide ('\n' ∉ l.dropLast) else decide ('\n' ∉ l)

/-! ## Cursors -/
open Cursor

def o_C26_move_to (g : GapBuffer) (c : Cursor) (p : Position) : Bool :=
  okAnd (g.inBounds S p) fun b => decide (moveTo S g c p = .ok (b, if b then ⟨p, p.offset⟩ else c))

def o_C26_move_to_text (g : GapBuffer) (t : Text) (c : Cursor) (p : Position) : Bool :=
  decide (moveTo S g c p = .ok (if (place? (S.segs t) p).isSome then (true, ⟨p, p.offset⟩) else (false, c)))

def o_C26_moves_stay_in_bounds (g : GapBuffer) (c : Cursor) (ms : List Move) : Bool :=
  okAnd (moves S g c ms) fun c' => imp (g.inBounds S c.position = .ok true) (decide (g.inBounds S c'.position = .ok true))

def o_C27_new_cursor (g : GapBuffer) (t : Text) (p : Position) (ms : List Move) : Bool :=
  imp ('\r' ∉ t) <| imp (g.inBounds S p = .ok true) <| imp (∀ m ∈ ms, Vertical m) <| imp (ms.foldl (vertical t) p.line = p.line) <|
    okAnd (moves S g (Cursor.new p) ms) fun c => decide (c.position = p)

def o_C27_vertical (g : GapBuffer) (t : Text) (l k : Nat) (ms : List Move) : Bool :=
  imp ('\r' ∉ t) <| imp (∀ m ∈ ms, Vertical m) <| someImp (lineLen S.segs t l) fun n =>
    someAnd (lineLen S.segs t (ms.foldl (vertical t) l)) fun n' =>
      decide (moves S g ⟨⟨l, min k n⟩, k⟩ ms = .ok ⟨⟨ms.foldl (vertical t) l, min k n'⟩, k⟩)

def o_C27_vertical_return (g : GapBuffer) (t : Text) (c : Cursor) (p : Position) (ms : List Move) : Bool :=
  imp ('\r' ∉ t) <| imp (∀ m ∈ ms, Vertical m) <| imp (ms.foldl (vertical t) p.line = p.line) <|
    okImp (moveTo S g c p) fun (ok, c1) => imp (ok = true) <|
      okAnd (moves S g c1 ms) fun c2 => decide (c2.position = p)

def o_C28_left (g : GapBuffer) (t : Text) (c : Cursor) : Bool :=
  imp (exists? S.segs t c.position = true) <| decide (move S g c .left = .ok (if c.position.offset = 0 then c
      else ⟨⟨c.position.line, c.position.offset - 1⟩, c.position.offset - 1⟩))

def o_C28_right (g : GapBuffer) (t : Text) (c : Cursor) : Bool :=
  imp ('\r' ∉ t) <| someImp (lineLen S.segs t c.position.line) fun n =>
    decide (move S g c .right = .ok (if c.position.offset < n then ⟨⟨c.position.line, c.position.offset + 1⟩, c.position.offset + 1⟩
      else c))

def o_C28_start (g : GapBuffer) (t : Text) (c : Cursor) : Bool :=
  imp (exists? S.segs t c.position = true) <| decide (move S g c .startOfLine = .ok ⟨⟨c.position.line, 0⟩, 0⟩)

def o_C28_end (g : GapBuffer) (t : Text) (c : Cursor) : Bool :=
  imp ('\r' ∉ t) <| someImp (lineLen S.segs t c.position.line) fun n => imp (c.position.offset ≤ n) <|
    okAnd (move S g c .endOfLine) fun c' => decide (c'.position = ⟨c.position.line, n⟩)

def o_C29_first_line (g : GapBuffer) (t : Text) (c : Cursor) : Bool :=
  imp ('\r' ∉ t) <| someAnd (lineLen S.segs t 0) fun n => decide (move S g c .firstLine = .ok ⟨⟨0, min c.sticky n⟩, min c.sticky n⟩)

def o_C29_last_line (g : GapBuffer) (t : Text) (c : Cursor) : Bool :=
  imp ('\r' ∉ t) <| someAnd (lineLen S.segs t (countNl t)) fun n =>
    decide (move S g c .lastLine = .ok ⟨⟨countNl t, min c.sticky n⟩, min c.sticky n⟩)

end Scribe.Oracle
