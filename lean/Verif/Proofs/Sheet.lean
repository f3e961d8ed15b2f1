import Verif.Spec.Sheet
import Verif.Proofs.Typing
import Verif.Proofs.Closed
import Verif.Proofs.Typing
/-! # Rows -/
namespace Scribe.Spec
variable {S : Segmenter}

theorem rows_no_nl {cs : List Text} (h : ['\n'] ∉ cs) : rows cs = [cs] := by
  induction cs with
  | nil => rfl
  | cons c cs ih =>
    have h1 : c ≠ ['\n'] := fun hc => h (by simp [hc])
    rw [rows, if_neg h1, ih (fun hm => h (by simp [hm]))]

theorem rows_nl {a b : List Text} (h : ['\n'] ∉ a) : rows (a ++ ['\n'] :: b) = a :: rows b := by
  induction a with
  | nil => simp [rows]
  | cons c cs ih =>
    have h1 : c ≠ ['\n'] := fun hc => h (by simp [hc])
    rw [List.cons_append, rows, if_neg h1, ih (fun hm => h (by simp [hm]))]

/-- Cluster lists by lines. -/
theorem clusters_induction {motive : List Text → Prop} (h1 : ∀ a, ['\n'] ∉ a → motive a)
    (h2 : ∀ a b, ['\n'] ∉ a → motive b → motive (a ++ ['\n'] :: b)) (cs : List Text) : motive cs := by
  generalize hn : cs.length = n
  induction n using Nat.strongRecOn generalizing cs with
  | _ n ih =>
    by_cases h : ['\n'] ∈ cs
    · obtain ⟨a, x, b, rfl, rfl, ha⟩ := first_split (fun c : Text => c = ['\n']) ⟨_, h, rfl⟩
      have hb : b.length < n := by rw [← hn]; simp; omega
      exact h2 a b (fun hm => ha _ hm rfl) (ih b.length hb b rfl)
    · exact h1 cs h

theorem rows_ne_nil (cs : List Text) : rows cs ≠ [] := by
  induction cs using clusters_induction with
  | h1 a h => rw [rows_no_nl h]; simp
  | h2 a b h _ => rw [rows_nl h]; simp

theorem rows_clean (cs : List Text) : ∀ r ∈ rows cs, ['\n'] ∉ r := by
  induction cs using clusters_induction with
  | h1 a h => rw [rows_no_nl h]; simpa using h
  | h2 a b h ih =>
    rw [rows_nl h]
    intro r hr
    rcases List.mem_cons.mp hr with rfl | hr
    · exact h
    · exact ih r hr

theorem mem_rows (cs : List Text) : ∀ r ∈ rows cs, ∀ c ∈ r, c ∈ cs := by
  induction cs using clusters_induction with
  | h1 a h => rw [rows_no_nl h]; simp
  | h2 a b h ih =>
    rw [rows_nl h]
    intro r hr c hc
    rcases List.mem_cons.mp hr with rfl | hr
    · simp [hc]
    · have := ih r hr c hc
      simp [this]

/-- Rows as clusters. -/
def unrows (L : Page) : List Text := [['\n']].intercalate L

theorem unrows_one (r : List Text) : unrows [r] = r := by simp [unrows, List.intercalate]

theorem unrows_cons (r : List Text) {L : Page} (h : L ≠ []) : unrows (r :: L) = r ++ ['\n'] :: unrows L := by
  obtain ⟨s, M, rfl⟩ := List.exists_cons_of_ne_nil h
  simp [unrows, List.intercalate, List.intersperse]

theorem unrows_rows (cs : List Text) : unrows (rows cs) = cs := by
  induction cs using clusters_induction with
  | h1 a h => rw [rows_no_nl h, unrows_one]
  | h2 a b h ih => rw [rows_nl h, unrows_cons _ (rows_ne_nil b), ih]

theorem rows_unrows {L : Page} (h : L ≠ []) (hc : ∀ r ∈ L, ['\n'] ∉ r) : rows (unrows L) = L := by
  induction L with
  | nil => exact absurd rfl h
  | cons r L ih =>
    have hr := hc r (by simp)
    by_cases hL : L = []
    · subst hL; rw [unrows_one, rows_no_nl hr]
    · rw [unrows_cons _ hL, rows_nl hr, ih hL fun x hx => hc x (by simp [hx])]

theorem rows_injective {a b : List Text} (h : rows a = rows b) : a = b := by
  rw [← unrows_rows a, h, unrows_rows]

theorem text_unrows (L : Page) : L.text = (unrows L).flatten := by
  by_cases h : L = []
  · subst h; rfl
  · induction L with
    | nil => exact absurd rfl h
    | cons r L ih =>
      by_cases hL : L = []
      · subst hL; simp [Page.text, unrows, List.intercalate]
      · rw [unrows_cons _ hL, List.flatten_append, List.flatten_cons, ← ih hL]
        obtain ⟨s, M, rfl⟩ := List.exists_cons_of_ne_nil hL
        simp [Page.text, List.intercalate]

theorem glue_snoc_cons (X : Page) (x y : List Text) (Y : Page) : Page.glue (X ++ [x]) (y :: Y) = X ++ (x ++ y) :: Y := by
  induction X with
  | nil => rfl
  | cons r X ih =>
    cases X with
    | nil => rfl
    | cons r' X => exact congrArg (r :: ·) ih

theorem rows_append (a b : List Text) : rows (a ++ b) = Page.glue (rows a) (rows b) := by
  induction a using clusters_induction with
  | h1 a h =>
    rw [rows_no_nl h]
    induction b using clusters_induction with
    | h1 b h' =>
      rw [rows_no_nl h', rows_no_nl (by simp [h, h'])]; rfl
    | h2 b c h' _ =>
      rw [rows_nl h', ← List.append_assoc, rows_nl (by simp [h, h'])]; rfl
  | h2 a c h ih =>
    rw [rows_nl h, List.append_assoc, List.cons_append, rows_nl h, ih]
    obtain ⟨s, M, hM⟩ := List.exists_cons_of_ne_nil (rows_ne_nil c)
    rw [hM]; rfl

theorem endPos_rows (X : Page) (x : List Text) (a : List Text) (h : rows a = X ++ [x]) : endPos a = ⟨X.length, x.length⟩ := by
  induction a using clusters_induction generalizing X with
  | h1 a hn =>
    rw [rows_no_nl hn] at h
    cases X with
    | nil => simp at h; rw [endPos_line_zero hn, h]; rfl
    | cons r X => simp at h
  | h2 a b hn ih =>
    rw [rows_nl hn] at h
    cases X with
    | nil => simp at h; exact absurd h.2 (rows_ne_nil b)
    | cons r X =>
      simp only [List.cons_append, List.cons.injEq] at h
      rw [endPos_after_nl hn, ih X h.2]; rfl

/-- Cutting a page where it is glued. -/
theorem cut_glue (X : Page) (x y : List Text) (Y : Page) :
    Page.has (X ++ (x ++ y) :: Y) ⟨X.length, x.length⟩ = true ∧ Page.upTo (X ++ (x ++ y) :: Y) ⟨X.length, x.length⟩ = X ++ [x] ∧
    Page.onFrom (X ++ (x ++ y) :: Y) ⟨X.length, x.length⟩ = y :: Y := by
  have e : (X ++ (x ++ y) :: Y)[X.length]? = some (x ++ y) := by simp
  refine ⟨?_, ?_, ?_⟩
  · simp [Page.has]
  · simp [Page.upTo]
  · simp only [Page.onFrom, e, Option.getD_some, List.drop_left]
    rw [show X ++ (x ++ y) :: Y = (X ++ [x ++ y]) ++ Y by simp, show X.length + 1 = (X ++ [x ++ y]).length by simp, List.drop_left]

theorem rows_locate {cs a b : List Text} {p : Position} (h : locate cs p = some (a, b)) :
    (rows cs).has p = true ∧ rows a = (rows cs).upTo p ∧ rows b = (rows cs).onFrom p := by
  obtain ⟨rfl, rfl⟩ := locate_eq_some.mp h
  obtain ⟨y, Y, hb⟩ := List.exists_cons_of_ne_nil (rows_ne_nil b)
  have ha : rows a = (rows a).dropLast ++ [(rows a).getLast (rows_ne_nil a)] := (List.dropLast_append_getLast _).symm
  generalize (rows a).dropLast = X at ha
  generalize (rows a).getLast (rows_ne_nil a) = x at ha
  rw [endPos_rows X x a ha, rows_append, ha, hb, glue_snoc_cons]
  obtain ⟨k1, k2, k3⟩ := cut_glue X x y Y
  exact ⟨k1, k2.symm, k3.symm⟩

theorem locate_rows {cs : List Text} {p : Position} (h : (rows cs).has p = true) : ∃ a b, locate cs p = some (a, b) := by
  unfold Page.has at h
  cases hr : (rows cs)[p.line]? with
  | none => rw [hr] at h; cases h
  | some r =>
    rw [hr] at h
    simp only [decide_eq_true_eq] at h
    obtain ⟨hlt, hr⟩ := List.getElem?_eq_some_iff.mp hr
    have e : rows cs = (rows cs).take p.line ++ r :: (rows cs).drop (p.line + 1) := by
      rw [← hr, List.getElem_cons_drop, List.take_append_drop]
    generalize hX : (rows cs).take p.line = X at e
    generalize (rows cs).drop (p.line + 1) = Y at e
    have hXl : X.length = p.line := by rw [← hX, List.length_take]; omega
    have hcl := rows_clean cs
    have hrm : r ∈ rows cs := by rw [e]; simp
    have ha : rows (unrows (X ++ [r.take p.offset])) = X ++ [r.take p.offset] := rows_unrows (by simp) (by
      intro x hx
      rcases List.mem_append.mp hx with hx | hx
      · exact hcl x (by rw [e]; simp [hx])
      · rw [List.mem_singleton.mp hx]; exact fun hm => hcl r hrm (List.mem_of_mem_take hm))
    have hb : rows (unrows (r.drop p.offset :: Y)) = r.drop p.offset :: Y := rows_unrows (by simp) (by
      intro x hx
      rcases List.mem_cons.mp hx with rfl | hx
      · exact fun hm => hcl r hrm (List.mem_of_mem_drop hm)
      · exact hcl x (by rw [e]; simp [hx]))
    refine ⟨unrows (X ++ [r.take p.offset]), unrows (r.drop p.offset :: Y), locate_eq_some.mpr ⟨?_, ?_⟩⟩
    · apply rows_injective
      rw [rows_append, ha, hb, glue_snoc_cons, List.take_append_drop, e]
    · rw [endPos_rows X _ _ ha, hXl, List.length_take, Nat.min_eq_left h]

theorem exists_rows (t : Text) (p : Position) : exists? S.segs t p = (rows (S.segs t)).has p := by
  unfold exists?
  cases h : locate (S.segs t) p with
  | some ab => exact ((rows_locate (show locate (S.segs t) p = some (ab.1, ab.2) from h)).1).symm
  | none =>
    cases hh : (rows (S.segs t)).has p with
    | false => rfl
    | true =>
      obtain ⟨a, b, h'⟩ := locate_rows hh
      rw [h] at h'; cases h'

theorem text_rows (t : Text) : (rows (S.segs t)).text = t := by rw [text_unrows, unrows_rows, S.join]

theorem read_rows (t : Text) (p q : Position) (h : AtOrBefore p q) :
    readRange S.segs t p q = ((rows (S.segs t)).between p q).map Page.text := by
  have hs := exists_rows (S := S) t
  unfold readRange Page.between
  cases hl : locate (S.segs t) p with
  | none => rw [← hs p, exists?, hl]; simp
  | some x =>
    obtain ⟨a, b⟩ := x
    cases hl' : locate (S.segs t) q with
    | none => rw [← hs q, exists?, hl']; simp
    | some y =>
      obtain ⟨a', b'⟩ := y
      obtain ⟨m, rfl, rfl⟩ := locate_mono hl hl' h
      obtain ⟨k1, _, _⟩ := rows_locate hl
      obtain ⟨k2, k3, _⟩ := rows_locate hl'
      have hm : locate (a ++ m) p = some (a, m) := locate_eq_some.mpr ⟨rfl, (locate_eq_some.mp hl).2⟩
      obtain ⟨_, _, k4⟩ := rows_locate hm
      rw [k1, k2]
      simp only [Bool.and_self, if_true, Option.map_some, List.drop_left]
      rw [← k3, ← k4, text_unrows, unrows_rows]

theorem rows_insertAt {t s : Text} {p : Position} (hc : CleanInsert S.segs t s p) :
    rows (S.segs (insertAt S.segs t s p)) = (rows (S.segs t)).insert p (rows (S.segs s)) := by
  unfold insertAt Page.insert
  cases h : locate (S.segs t) p with
  | none =>
    have := exists_rows (S := S) t p
    rw [exists?, h] at this
    rw [← this]; rfl
  | some ab =>
    obtain ⟨a, b⟩ := ab
    obtain ⟨h1, h2, h3⟩ := rows_locate h
    simp only [h1, if_true]
    rw [hc a b h, rows_append, rows_append, h2, h3]

theorem rows_afterEnd (cs : List Text) (q : Position) : rows (afterEnd cs q) =
    if (rows cs).has q then (rows cs).onFrom q else if q.line + 1 < (rows cs).length then (rows cs).drop (q.line + 1) else [[]] := by
  have none_ : ∀ p, locate cs p = none → (rows cs).has p = false := by
    intro p hp
    cases hh : (rows cs).has p with
    | false => rfl
    | true => obtain ⟨a, b, h'⟩ := locate_rows hh; rw [hp] at h'; cases h'
  unfold afterEnd
  cases h : locate cs q with
  | some ab =>
    obtain ⟨h1, _, h3⟩ := rows_locate (show locate cs q = some (ab.1, ab.2) from h)
    simp only [h1, if_true, h3]
  | none =>
    simp only [none_ q h]
    cases h' : locate cs ⟨q.line + 1, 0⟩ with
    | some ab =>
      obtain ⟨h1, _, h3⟩ := rows_locate (show locate cs _ = some (ab.1, ab.2) from h')
      have hlt : q.line + 1 < (rows cs).length := by
        unfold Page.has at h1
        cases hr : (rows cs)[q.line + 1]? with
        | none => simp only [hr] at h1; cases h1
        | some r => exact (List.getElem?_eq_some_iff.mp hr).1
      simp only [Bool.false_eq_true, if_false, hlt, if_true]
      rw [h3]
      simp only [Page.onFrom, List.getElem?_eq_getElem hlt, Option.getD_some, List.drop_zero, List.getElem_cons_drop]
    | none =>
      have h1 := none_ _ h'
      have hlt : ¬ q.line + 1 < (rows cs).length := by
        intro hlt
        simp only [Page.has, List.getElem?_eq_getElem hlt, Nat.zero_le, decide_true] at h1
        cases h1
      simp only [Bool.false_eq_true, if_false, hlt]
      rfl

theorem rows_deleteRange {t : Text} {p q : Position} (hc : CleanDelete S.segs t p q) :
    rows (S.segs (deleteRange S.segs t p q)) = (rows (S.segs t)).remove p q := by
  unfold deleteRange Page.remove
  cases h : locate (S.segs t) p with
  | none =>
    have := exists_rows (S := S) t p
    rw [exists?, h] at this
    rw [← this]; rfl
  | some ab =>
    obtain ⟨a, b⟩ := ab
    obtain ⟨h1, h2, h3⟩ := rows_locate h
    simp only [h1, if_true]
    rw [hc a b h, rows_append, h2, rows_afterEnd]

theorem remove_erase (L : Page) (p : Position) (q : Position)
    (hq : q = if L.has ⟨p.line, p.offset + 1⟩ then ⟨p.line, p.offset + 1⟩ else ⟨p.line + 1, 0⟩) : L.remove p q = L.erase p := by
  obtain ⟨l, o⟩ := p
  simp only at hq
  unfold Page.remove Page.erase
  simp only
  cases hr : L[l]? with
  | none => simp [Page.has, hr]
  | some r =>
    obtain ⟨hlt, hr'⟩ := List.getElem?_eq_some_iff.mp hr
    have e : L = L.take l ++ r :: L.drop (l + 1) := by rw [← hr', List.getElem_cons_drop, List.take_append_drop]
    have hl : (L.take l).length = l := by rw [List.length_take]; omega
    have hp : L.has ⟨l, o⟩ = decide (o ≤ r.length) := by simp [Page.has, hr]
    have hp1 : L.has ⟨l, o + 1⟩ = decide (o + 1 ≤ r.length) := by simp [Page.has, hr]
    have up : L.upTo ⟨l, o⟩ = L.take l ++ [r.take o] := by simp [Page.upTo, hr]
    rw [hp, up]
    simp only
    by_cases h1 : o < r.length
    · rw [hp1, if_pos (by simp; omega)] at hq
      subst hq
      have fr : L.onFrom ⟨l, o + 1⟩ = r.drop (o + 1) :: L.drop (l + 1) := by simp [Page.onFrom, hr]
      rw [if_pos (by simp; omega), hp1, if_pos (by simp; omega), if_pos h1, fr, glue_snoc_cons, List.eraseIdx_eq_take_drop_succ]
      conv => rhs; rw [e]
      rw [List.set_append_right _ _ (by omega), hl]; simp
    · rw [hp1, if_neg (by simp; omega)] at hq
      subst hq
      rw [if_neg h1]
      by_cases h2 : o = r.length
      · subst h2
        rw [if_pos (by simp), if_pos rfl]
        cases hs : L[l + 1]? with
        | none =>
          have hlen : L.length ≤ l + 1 := List.getElem?_eq_none_iff.mp hs
          simp only [Page.has, hs, Bool.false_eq_true, if_false]
          rw [if_neg (by simp; omega), glue_snoc_cons]
          conv => rhs; rw [e]
          simp [List.drop_eq_nil_of_le hlen]
        | some s =>
          obtain ⟨hlt2, hs'⟩ := List.getElem?_eq_some_iff.mp hs
          have e2 : L.drop (l + 1) = s :: L.drop (l + 2) := by rw [← hs', List.getElem_cons_drop]
          have fr : L.onFrom ⟨l + 1, 0⟩ = s :: L.drop (l + 2) := by simp [Page.onFrom, hs]
          simp only [Page.has, hs, Nat.zero_le, decide_true, if_true]
          rw [fr, glue_snoc_cons, List.take_length]
          conv => rhs; rw [e, e2]
          rw [List.set_append_right _ _ (by omega), hl, Nat.sub_self, List.set_cons_zero, List.eraseIdx_append_of_length_le (by omega), hl]
          simp
      · rw [if_neg (by simp; omega), if_neg h2]

theorem rows_delete {t : Text} {p : Position} (hc : CleanDelete S.segs t p (Doc.deleteEnd S.segs t p)) :
    rows (S.segs (deleteRange S.segs t p (Doc.deleteEnd S.segs t p))) = (rows (S.segs t)).erase p := by
  rw [rows_deleteRange hc]
  apply remove_erase
  unfold Doc.deleteEnd
  rw [exists_rows]

/-! Movements, in texts without CR. -/

theorem rows_splitNl {t : Text} (hcr : '\r' ∉ t) : rows (S.segs t) = (splitNl t).map S.segs := by
  induction t using lines_induction with
  | h1 l h => rw [splitNl_no_nl h, rows_no_nl (S.nl_notMem h)]; rfl
  | h2 l r h ih =>
    have hl : '\r' ∉ l := fun hm => hcr (by simp [hm])
    have hr : '\r' ∉ r := fun hm => hcr (by simp [hm])
    rw [S.segs_line h hl, rows_nl (S.nl_notMem h), splitNl_append h, ih hr]; rfl

theorem lineLen_rows {t : Text} (hcr : '\r' ∉ t) (i : Nat) : lineLen S.segs t i = (rows (S.segs t))[i]?.map List.length := by
  rw [rows_splitNl hcr, lineLen, List.getElem?_map, Option.map_map]; rfl

theorem strLines_rows {t : Text} (hcr : '\r' ∉ t) (i : Nat) : (strLines t)[i]?.map S.segs =
    if (rows (S.segs t))[i]? = some [] ∧ i + 1 = (rows (S.segs t)).length then none else (rows (S.segs t))[i]? := by
  rw [rows_splitNl hcr]
  induction t using lines_induction generalizing i with
  | h1 l h =>
    have hl : '\r' ∉ l := hcr
    rw [splitNl_no_nl h]
    unfold strLines
    rw [splitInclusive_no_nl h]
    by_cases he : l = []
    · subst he
      cases i with
      | zero => simp [S.segs_nil]
      | succ i => simp
    · have hne : S.segs l ≠ [] := fun hs => he (by rw [← S.join l, hs]; rfl)
      have hse : stripEol l = l := by unfold stripEol; rw [if_neg (fun hg => h (List.mem_of_getLast? hg))]
      cases i with
      | zero => simp [he, hne, hse]
      | succ i => simp [he]
  | h2 l r h ih =>
    have hl : '\r' ∉ l := fun hm => hcr (by simp [hm])
    have hr : '\r' ∉ r := fun hm => hcr (by simp [hm])
    rw [splitNl_append h]
    unfold strLines at ih ⊢
    rw [splitInclusive_append h]
    have hse : stripEol (l ++ ['\n']) = l := by
      unfold stripEol
      simp only [List.getLast?_append, List.getLast?_singleton, Option.some_or, if_true, List.dropLast_concat]
      rw [if_neg (fun hg => hl (List.mem_of_getLast? hg))]
    cases i with
    | zero =>
      have : splitNl r ≠ [] := by
        intro hn
        have := length_splitNl r
        rw [hn] at this; simp at this
      simp [hse, this]
    | succ i =>
      have := ih hr i
      simp only [List.map_cons, List.getElem?_cons_succ, List.length_cons, Nat.add_right_cancel_iff] at this ⊢
      exact this

theorem tryMove_rows (t : Text) (c : Cursor) (p : Position) : tryMove S.segs t c p = (rows (S.segs t)).goTo c p := by
  unfold tryMove Page.goTo; rw [exists_rows]

theorem lineStop_rows {t : Text} (hcr : '\r' ∉ t) {l : Nat} {r : List Text} (h : (rows (S.segs t))[l]? = some r) :
    (((strLines t)[l]?.map fun x => (S.segs x).length).getD 0) = r.length :=
  Cursor.lineEnd_eq hcr (by rw [lineLen_rows hcr, h]; rfl)

theorem tryLine_rows {t : Text} (hcr : '\r' ∉ t) (c : Cursor) (l : Nat) : tryLine S.segs t c l = (rows (S.segs t)).goToRow c l := by
  unfold tryLine Page.goToRow
  simp only [exists_rows]
  cases h : (rows (S.segs t))[l]? with
  | none => simp [Page.has, h]
  | some r =>
    rw [lineStop_rows hcr h]
    simp only [Page.has, h, decide_eq_true_eq, Nat.le_refl, decide_true, if_true]
    split
    · rw [Nat.min_eq_left (by assumption)]
    · rw [Nat.min_eq_right (by omega)]

theorem move_rows {t : Text} (hcr : '\r' ∉ t) (c : Cursor) (m : Cursor.Move) : moveCursor S.segs t c m = (rows (S.segs t)).move c m := by
  cases m with
  | «to» p => exact tryMove_rows t c p
  | up => simp only [moveCursor, Page.move, tryLine_rows hcr]
  | down => exact tryLine_rows hcr c _
  | left => simp only [moveCursor, Page.move, tryMove_rows]
  | right => exact tryMove_rows t c _
  | startOfLine => exact tryMove_rows t c _
  | endOfLine =>
    have h := strLines_rows (S := S) hcr c.position.line
    simp only [moveCursor, Page.move]
    cases hr : (rows (S.segs t))[c.position.line]? with
    | none =>
      rw [hr] at h
      simp only [reduceCtorEq, false_and, if_false, Option.map_eq_none_iff] at h
      rw [h]
    | some r =>
      rw [hr] at h
      have ok : ∀ l, S.segs l = r → tryMove S.segs t c ⟨c.position.line, (S.segs l).length⟩ = ⟨⟨c.position.line, r.length⟩, r.length⟩ := by
        rintro l rfl
        rw [tryMove_rows, Page.goTo, if_pos (by simp [Page.has, hr])]
      by_cases hlast : r = [] ∧ c.position.line + 1 = (rows (S.segs t)).length
      · rw [if_pos ⟨by rw [hlast.1], hlast.2⟩, Option.map_eq_none_iff] at h
        rw [h, hlast.1]
        simp only
        rw [if_pos hlast.2]
      · rw [if_neg (by simpa using hlast), Option.map_eq_some_iff] at h
        obtain ⟨l, h1, h2⟩ := h
        rw [h1]
        simp only
        rw [ok l h2]
        cases r with
        | nil =>
          simp only
          rw [if_neg (fun hh => hlast ⟨rfl, hh⟩)]; rfl
        | cons x r => rfl
  | lastLine =>
    obtain ⟨h1, h2⟩ := endPos_text (S := S) hcr
    rw [lineLen_rows hcr, Option.map_eq_some_iff] at h2
    obtain ⟨r, h2, h3⟩ := h2
    have hlen : (rows (S.segs t)).length = (endPos (S.segs t)).line + 1 := by rw [rows_splitNl hcr, List.length_map, h1]
    have hlast : (rows (S.segs t)).getLast?.getD [] = r := by
      rw [List.getLast?_eq_getElem?, hlen, Nat.add_sub_cancel, h2]; rfl
    simp only [moveCursor, Page.move, hlast, hlen, Nat.add_sub_cancel, tryMove_rows, ← h3]
    rw [Page.goTo, if_pos]
    simp only [Page.has, h2, decide_eq_true_eq]
    omega
  | firstLine =>
    obtain ⟨r, L, hL⟩ := List.exists_cons_of_ne_nil (rows_ne_nil (S.segs t))
    have h0 : (rows (S.segs t))[0]? = some r := by rw [hL]; rfl
    have hhead : (rows (S.segs t)).head?.getD [] = r := by rw [hL]; rfl
    simp only [moveCursor, Page.move, hhead, lineStop_rows hcr h0, tryMove_rows]
    rw [Page.goTo, if_pos]
    simp only [Page.has, h0, decide_eq_true_eq]
    omega

theorem place_rows (t : Text) (p : Position) : placeCursor S.segs t p = (rows (S.segs t)).place p := by
  unfold placeCursor Page.place
  simp only [exists_rows]
  split
  · rfl
  · have : Page.has (rows (S.segs t)) ⟨p.line, 0⟩ = decide (p.line < (rows (S.segs t)).length) := by
      unfold Page.has
      simp only
      by_cases h : p.line < (rows (S.segs t)).length
      · simp [h]
      · simp [h]
    rw [this]
    simp

/-! Documents as sheets. -/

def changeOf (segs : Text → List Text) (e : Edit) : Change := ⟨rows (segs e.before), rows (segs e.after), e.whole⟩

def sheetOf (segs : Text → List Text) (d : Doc) : LineEditor :=
  ⟨rows (segs d.text), d.cursor, d.undo.map (·.map (changeOf segs)), d.redo.map (·.map (changeOf segs)), d.group.map (·.map (changeOf segs)), d.mark⟩

theorem sheet_report (d : Doc) (p : Option Position) : sheetOf S.segs (d.report p) = sheetOf S.segs d := by
  unfold Doc.report
  cases p with
  | none => rfl
  | some p => simp only; split <;> rfl

theorem sheet_setText (d : Doc) (t : Text) (w : Bool) : sheetOf S.segs (d.setText S.segs t w) = (sheetOf S.segs d).show_ (rows (S.segs t)) w := by
  cases w with
  | false => rfl
  | true =>
    simp only [sheetOf, Doc.setText, LineEditor.show_, if_true, place_rows]

theorem sheet_push (d : Doc) (es : List Edit) : sheetOf S.segs (d.push es) = (sheetOf S.segs d).push (es.map (changeOf S.segs)) := by
  simp [sheetOf, Doc.push, LineEditor.push]

theorem sheet_edit (d : Doc) (e : Edit) (hb : e.before = d.text) :
    sheetOf S.segs (d.edit S.segs e) = (sheetOf S.segs d).edit (rows (S.segs e.after)) e.whole := by
  have h1 : sheetOf S.segs (d.apply S.segs e) = (sheetOf S.segs d).show_ (rows (S.segs e.after)) e.whole := by
    unfold Doc.apply; rw [sheet_report, sheet_setText]
  have hc : changeOf S.segs e = ⟨(sheetOf S.segs d).page, rows (S.segs e.after), e.whole⟩ := by
    simp only [changeOf, hb]; rfl
  unfold Doc.edit LineEditor.edit
  simp only
  rw [← h1, ← hc]
  generalize d.apply S.segs e = d1
  cases hg : d1.group with
  | none =>
    rw [show (sheetOf S.segs d1).group = none by simp [sheetOf, hg]]
    exact sheet_push d1 [e]
  | some es => simp [sheetOf, hg]

theorem sheet_forward (es : List Edit) (d : Doc) : sheetOf S.segs (d.applyAll S.segs es) = (sheetOf S.segs d).forward (es.map (changeOf S.segs)) := by
  unfold Doc.applyAll LineEditor.forward
  induction es generalizing d with
  | nil => rfl
  | cons e es ih =>
    rw [List.foldl_cons, ih, List.map_cons, List.foldl_cons]
    congr 1
    unfold Doc.apply; rw [sheet_report, sheet_setText]; rfl

theorem sheet_backward (es : List Edit) (d : Doc) : sheetOf S.segs (d.revertAll S.segs es) = (sheetOf S.segs d).backward (es.map (changeOf S.segs)) := by
  unfold Doc.revertAll LineEditor.backward
  rw [← List.map_reverse]
  generalize es.reverse = es
  induction es generalizing d with
  | nil => rfl
  | cons e es ih =>
    rw [List.foldl_cons, ih, List.map_cons, List.foldl_cons]
    congr 1
    unfold Doc.revert; rw [sheet_report, sheet_setText]; rfl

theorem segs_injective {t u : Text} (h : S.segs t = S.segs u) : t = u := by rw [← S.join t, h, S.join]

theorem sheet_replace (d : Doc) (t : Text) : sheetOf S.segs (d.replace S.segs t) = (sheetOf S.segs d).replace (rows (S.segs t)) := by
  unfold Doc.replace LineEditor.replace
  by_cases h : t = d.text
  · rw [if_pos h, if_pos (by rw [h]; rfl)]
  · have hn : ¬ rows (S.segs t) = (sheetOf S.segs d).page := fun hr => h (segs_injective (rows_injective hr))
    rw [if_neg h, if_neg hn]
    exact sheet_edit d _ rfl

theorem sheet_step {P : Text → Prop} (hP : Closed S.segs P) (hcr : ∀ c, P c → '\r' ∉ c) {d : Doc} (h : DocOver S P d) (c : Buf.Cmd)
    (hc : OrdinaryCmd S.segs P d c) : sheetOf S.segs (d.step S.segs c) = (sheetOf S.segs d).step S.segs c := by
  have hn := over_noCr hcr h.text
  cases c with
  | insert s =>
    refine (sheet_edit d _ rfl).trans ?_
    simp only [Doc.insertEdit, rows_insertAt (over_cleanInsert hP _ h.text hc)]
    rfl
  | delete =>
    refine (sheet_edit d _ rfl).trans ?_
    simp only [Doc.deleteEdit, rows_delete (over_cleanDelete hP _ _ h.text)]
    rfl
  | deleteRange p q =>
    refine (sheet_edit d _ rfl).trans ?_
    simp only [Doc.deleteEdit, rows_deleteRange (over_cleanDelete hP _ _ h.text)]
    rfl
  | replace t => exact sheet_replace d t
  | reload t =>
    have := sheet_replace (S := S) d t
    simp only [Doc.step, LineEditor.step, ← this]
    simp [sheetOf]
  | undo =>
    have back : sheetOf S.segs (match d.undo with
        | es :: rest => Doc.revertAll S.segs { d with group := none, undo := rest, redo := es :: d.redo } es
        | [] => { d with group := none }) = (match (sheetOf S.segs d).undo with
        | es :: rest => { sheetOf S.segs d with group := none, undo := rest, redo := es :: (sheetOf S.segs d).redo }.backward es
        | [] => { sheetOf S.segs d with group := none }) := by
      cases hu : d.undo with
      | nil => simp [sheetOf, hu]
      | cons es rest =>
        simp only [sheet_backward]
        simp [sheetOf, hu]
    show sheetOf S.segs (d.undo1 S.segs) = _
    simp only [Doc.undo1, LineEditor.step]
    cases hg : d.group with
    | none => rw [show (sheetOf S.segs d).group = none by simp [sheetOf, hg]]; exact back
    | some es =>
      cases es with
      | nil => rw [show (sheetOf S.segs d).group = some [] by simp [sheetOf, hg]]; exact back
      | cons e es =>
        rw [show (sheetOf S.segs d).group = some (changeOf S.segs e :: es.map (changeOf S.segs)) by simp [sheetOf, hg]]
        simp only [sheet_backward]
        rfl
  | redo =>
    show sheetOf S.segs (d.redo1 S.segs) = _
    simp only [Doc.redo1, LineEditor.step]
    cases hu : d.redo with
    | nil => simp [sheetOf, hu]
    | cons es rest =>
      simp only [sheet_forward]
      simp [sheetOf, hu]
  | startGroup =>
    simp only [Doc.step, LineEditor.step, sheetOf]
    cases d.group <;> rfl
  | endGroup =>
    simp only [Doc.step, Doc.endGroup, LineEditor.step]
    cases hg : d.group with
    | none => simp [sheetOf, hg]
    | some es =>
      cases es with
      | nil => simp [sheetOf, hg]
      | cons e es => simp [sheetOf, hg, Doc.push, LineEditor.push]
  | move m =>
    simp only [Doc.step, LineEditor.step, sheetOf, move_rows hn]
  | setCursor p => rfl
  | setCallback v => rfl
  | saved => simp [Doc.step, LineEditor.step, sheetOf]

theorem fit_ordinary {P : Text → Prop} {d : Doc} {c : Buf.Cmd} (h : (sheetOf S.segs d).Fit S.segs P c) : OrdinaryCmd S.segs P d c := by
  cases c with
  | insert t => exact h
  | replace t => exact h
  | reload t => exact h
  | deleteRange p q =>
    simp only [OrdinaryCmd, exists_rows]
    exact h
  | redo =>
    simp only [LineEditor.Fit, sheetOf, List.map_eq_nil_iff, Option.map_eq_none_iff] at h
    rcases h with h | h | h
    · exact Or.inl h
    · exact Or.inr (Or.inl h)
    · rw [Option.map_eq_some_iff] at h
      obtain ⟨es, h1, h2⟩ := h
      rw [List.map_eq_nil_iff] at h2
      rw [h2] at h1
      exact Or.inr (Or.inr h1)
  | _ => trivial

theorem sheet_steps {P : Text → Prop} (hP : Closed S.segs P) (hcr : ∀ c, P c → '\r' ∉ c) (cs : List Buf.Cmd) {d : Doc} (h : DocOver S P d)
    (hc : (sheetOf S.segs d).FitAll S.segs P cs) :
    CleanCmds S.segs d cs ∧ DocOver S P (d.steps S.segs cs) ∧ sheetOf S.segs (d.steps S.segs cs) = (sheetOf S.segs d).steps S.segs cs := by
  induction cs generalizing d with
  | nil => exact ⟨trivial, h, rfl⟩
  | cons c cs ih =>
    have ho := fit_ordinary hc.1
    have hs := sheet_step hP hcr h c ho
    obtain ⟨k1, k2, k3⟩ := ih (h.step hP c ho) (by rw [hs]; exact hc.2)
    refine ⟨⟨h.clean hP c ho, k1⟩, k2, ?_⟩
    rw [show d.steps S.segs (c :: cs) = (d.step S.segs c).steps S.segs cs from rfl, k3, hs]; rfl

/-! Edits within a row. -/

theorem split_at {α : Type _} {L : List α} {l : Nat} {r : α} (h : L[l]? = some r) : ∃ X Y, L = X ++ r :: Y ∧ X.length = l := by
  obtain ⟨hl, rfl⟩ := List.getElem?_eq_some_iff.mp h
  exact ⟨L.take l, L.drop (l + 1), by simp, by simp; omega⟩

theorem row_remove {L : Page} {r : List Text} {l o n : Nat} (h : L[l]? = some r) (ho : o + n ≤ r.length) :
    L.remove ⟨l, o⟩ ⟨l, o + n⟩ = L.set l (r.take o ++ r.drop (o + n)) := by
  obtain ⟨X, Y, rfl, rfl⟩ := split_at h
  obtain ⟨h1, h2, _⟩ := cut_glue X (r.take o) (r.drop o) Y
  obtain ⟨k1, _, k3⟩ := cut_glue X (r.take (o + n)) (r.drop (o + n)) Y
  rw [List.take_append_drop, List.length_take_of_le (by omega)] at h1 h2 k1 k3
  rw [Page.remove, h1, k1, h2, k3, if_pos rfl, if_pos rfl, glue_snoc_cons]
  simp

theorem row_insert {L : Page} {r x : List Text} {l o : Nat} (h : L[l]? = some r) (ho : o ≤ r.length) :
    L.insert ⟨l, o⟩ [x] = L.set l (r.take o ++ x ++ r.drop o) := by
  obtain ⟨X, Y, rfl, rfl⟩ := split_at h
  obtain ⟨h1, h2, h3⟩ := cut_glue X (r.take o) (r.drop o) Y
  rw [List.take_append_drop, List.length_take_of_le (by omega)] at h1 h2 h3
  rw [Page.insert, h1, h2, h3, if_pos rfl, glue_snoc_cons, glue_snoc_cons]
  simp

theorem rowEdit_step {P : Text → Prop} (hP : Closed S.segs P) (e : RowEdit) {d : Doc} (h : Over S.segs P d.text) {r : List Text}
    (hr : (rows (S.segs d.text))[e.line]? = some r) (ho : e.start + e.len ≤ r.length) (hs : Over S.segs P e.put) (hn : '\n' ∉ e.put) :
    CleanCmds S.segs d e.calls ∧ Over S.segs P (d.steps S.segs e.calls).text ∧
    rows (S.segs (d.steps S.segs e.calls).text) = (rows (S.segs d.text)).set e.line (e.on S.segs r) := by
  obtain ⟨l, o, n, s⟩ := e
  simp only at hr ho hs hn
  have hlo : lo ⟨l, o⟩ ⟨l, o + n⟩ = ⟨l, o⟩ := if_pos (Or.inr ⟨rfl, by simp⟩)
  have hhi : hi ⟨l, o⟩ ⟨l, o + n⟩ = ⟨l, o + n⟩ := if_pos (Or.inr ⟨rfl, by simp⟩)
  have hhas : ∀ m, m ≤ r.length → (rows (S.segs d.text)).has ⟨l, m⟩ = true := by
    intro m hm; simp [Page.has, hr, hm]
  -- move
  have e1 : d.step S.segs (.move (.to ⟨l, o⟩)) = { d with cursor := ⟨⟨l, o⟩, o⟩ } := by
    show { d with cursor := moveCursor S.segs d.text d.cursor (.to ⟨l, o⟩) } = _
    have : moveCursor S.segs d.text d.cursor (.to ⟨l, o⟩) = (rows (S.segs d.text)).goTo d.cursor ⟨l, o⟩ := tryMove_rows _ _ _
    rw [this, Page.goTo, hhas o (by omega), if_pos rfl]
  -- delete
  have e2 := step_edit S.segs { d with cursor := ⟨⟨l, o⟩, o⟩ } (Doc.deleteEdit S.segs d.text ⟨l, o⟩ ⟨l, o + n⟩) rfl
  generalize hd2 : Doc.edit S.segs { d with cursor := ⟨⟨l, o⟩, o⟩ } (Doc.deleteEdit S.segs d.text ⟨l, o⟩ ⟨l, o + n⟩) = d2 at e2
  have r2 : rows (S.segs d2.text) = (rows (S.segs d.text)).set l (r.take o ++ r.drop (o + n)) := by
    rw [e2.1]
    show rows (S.segs (Spec.deleteRange _ _ _ _)) = _
    rw [rows_deleteRange (over_cleanDelete hP _ _ h), row_remove hr ho]
  have o2 : Over S.segs P d2.text := by rw [e2.1]; exact over_deleteRange hP _ _ h
  -- insert
  have e3 := step_edit S.segs d2 (Doc.insertEdit S.segs d2.text s d2.cursor.position) rfl
  have ed : (d.step S.segs (.move (.to ⟨l, o⟩))).step S.segs (.deleteRange ⟨l, o⟩ ⟨l, o + n⟩) = d2 := by
    rw [e1, ← hd2]
    show Doc.edit S.segs _ (Doc.deleteEdit S.segs d.text (lo _ _) (hi _ _)) = _
    rw [hlo, hhi]
  have es : d.steps S.segs (RowEdit.calls ⟨l, o, n, s⟩) = d2.edit S.segs (Doc.insertEdit S.segs d2.text s d2.cursor.position) := by
    show (((d.step S.segs (.move (.to ⟨l, o⟩))).step S.segs (.deleteRange ⟨l, o⟩ ⟨l, o + n⟩)).step S.segs (.insert s)) = _
    rw [ed]; rfl
  have hpos : d2.cursor.position = ⟨l, o⟩ := by rw [e2.2]
  have hsr : rows (S.segs s) = [S.segs s] := rows_no_nl fun hm => hn (by
    rw [← S.join s]; exact List.mem_flatten.mpr ⟨_, hm, by simp⟩)
  have hl : l < (rows (S.segs d.text)).length := (List.getElem?_eq_some_iff.mp hr).1
  refine ⟨⟨trivial, ?_, ?_, trivial⟩, ?_, ?_⟩
  · rw [e1]
    show CleanRange S.segs d.text (lo _ _) (hi _ _)
    rw [hlo, hhi]
    exact ⟨over_cleanDelete hP _ _ h, Or.inl (by rw [exists_rows]; exact hhas _ ho)⟩
  · rw [ed]
    exact ⟨over_cleanInsert hP _ o2 hs, fun h => hP.noCrlf (hs _ h)⟩
  · rw [es, e3.1]; exact over_insertAt hP _ o2 hs
  · rw [es, e3.1]
    show rows (S.segs (insertAt _ _ _ _)) = _
    rw [rows_insertAt (over_cleanInsert hP _ o2 hs), hsr, hpos, r2, row_insert (r := r.take o ++ r.drop (o + n)) (by simp [hl]) (by simp; omega), List.set_set]
    congr 1
    have ht : (r.take o).length = o := List.length_take_of_le (by omega)
    rw [List.take_left' ht, List.drop_left' ht]; rfl

theorem rowEdits {P : Text → Prop} (hP : Closed S.segs P) (es : List RowEdit) {d : Doc} (h : Over S.segs P d.text)
    (hs : ∀ e ∈ es, Over S.segs P e.put ∧ '\n' ∉ e.put) (hl : ∀ e ∈ es, e.line < (rows (S.segs d.text)).length)
    (ha : ∀ i r, (rows (S.segs d.text))[i]? = some r → RowEdit.Allowed S.segs r (RowEdit.ofLine es i)) :
    CleanCmds S.segs d (es.flatMap RowEdit.calls) ∧ rows (S.segs (d.steps S.segs (es.flatMap RowEdit.calls)).text) =
      (rows (S.segs d.text)).mapIdx fun i r => (RowEdit.ofLine es i).foldl (RowEdit.on S.segs) r := by
  induction es generalizing d with
  | nil =>
    refine ⟨trivial, ?_⟩
    apply List.ext_getElem?
    intro i
    rw [List.getElem?_mapIdx]
    simp [RowEdit.ofLine, Doc.steps]
  | cons e es ih =>
    obtain ⟨s1, s2⟩ := hs e (by simp)
    have hlt := hl e (by simp)
    obtain ⟨r, hr⟩ : ∃ r, (rows (S.segs d.text))[e.line]? = some r := ⟨_, List.getElem?_eq_getElem hlt⟩
    have ha1 := ha e.line r hr
    rw [RowEdit.ofLine, List.filter_cons_of_pos (by simp)] at ha1
    obtain ⟨k1, k2, k3⟩ := rowEdit_step hP e h hr ha1.1 s1 s2
    obtain ⟨m1, m2⟩ := ih (d := d.steps S.segs e.calls) k2 (fun x hx => hs x (by simp [hx]))
      (fun x hx => by rw [k3, List.length_set]; exact hl x (by simp [hx]))
      (fun i r' hr' => by
        rw [k3, List.getElem?_set] at hr'
        by_cases hi : e.line = i
        · subst hi
          rw [if_pos rfl, if_pos hlt] at hr'
          cases hr'
          exact ha1.2
        · rw [if_neg hi] at hr'
          have := ha i r' hr'
          rwa [RowEdit.ofLine, List.filter_cons_of_neg (by simpa using hi)] at this)
    rw [List.flatMap_cons]
    refine ⟨cleanCmds_append.mpr ⟨k1, m1⟩, ?_⟩
    rw [show d.steps S.segs (e.calls ++ es.flatMap RowEdit.calls) = (d.steps S.segs e.calls).steps S.segs (es.flatMap RowEdit.calls) from List.foldl_append, m2, k3]
    apply List.ext_getElem?
    intro i
    rw [List.getElem?_mapIdx, List.getElem?_mapIdx, List.getElem?_set]
    by_cases hi : e.line = i
    · subst hi
      rw [if_pos rfl, if_pos hlt, hr, RowEdit.ofLine, RowEdit.ofLine, List.filter_cons_of_pos (by simp)]; rfl
    · rw [if_neg hi, RowEdit.ofLine, RowEdit.ofLine, List.filter_cons_of_neg (by simpa using hi)]

end Scribe.Spec
