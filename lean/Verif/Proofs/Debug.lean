import Verif.Model.Debug
import Verif.Spec.Debug
/-! # Reading debug output -/
namespace Scribe.Debug
open Spec

/-! ## Digits -/

def IsDigit (c : Char) : Prop := ∃ k < 16, c = k.digitChar

theorem digitChar_isDigit : ∀ k < 16, IsDigit k.digitChar := fun k h => ⟨k, h, rfl⟩

theorem digits_mem {base : Nat} (hb : 2 ≤ base ∧ base ≤ 16) (n : Nat) : ∀ c ∈ digits base n, IsDigit c := by
  induction n using Nat.strongRecOn with
  | ind n ih =>
    rw [digits]
    split
    case isTrue h => intro c hc; rw [List.mem_singleton] at hc; subst hc; exact digitChar_isDigit _ (by omega)
    case isFalse h =>
      intro c hc
      rcases List.mem_append.mp hc with hc | hc
      · exact ih _ (Nat.div_lt_self (by omega) (by omega)) c hc
      · rw [List.mem_singleton] at hc; subst hc
        exact digitChar_isDigit _ (by have := Nat.mod_lt n (show base > 0 by omega); omega)

def undigit (c : Char) : Nat := ((List.range 16).find? fun k => k.digitChar == c).getD 0

theorem undigit_digitChar : ∀ k < 16, undigit k.digitChar = k := by decide

def value (base : Nat) (t : Text) : Nat := t.foldl (fun a c => a * base + undigit c) 0

theorem value_digits {base : Nat} (hb : 2 ≤ base ∧ base ≤ 16) (n : Nat) : value base (digits base n) = n := by
  induction n using Nat.strongRecOn with
  | ind n ih =>
    rw [digits]
    split
    case isTrue h => simp only [value, List.foldl_cons, List.foldl_nil, undigit_digitChar n (by omega)]; omega
    case isFalse h =>
      have hm := Nat.mod_lt n (show base > 0 by omega)
      have := ih _ (Nat.div_lt_self (n := n) (k := base) (by omega) (by omega))
      simp only [value] at this
      simp only [value, List.foldl_append, List.foldl_cons, List.foldl_nil, this, undigit_digitChar _ (show n % base < 16 by omega)]
      exact Nat.div_add_mod' n base

theorem run_cancel {p : Char → Prop} {c d : Char} (hc : ¬ p c) (hd : ¬ p d) : ∀ {xs ys u v : Text}, (∀ x ∈ xs, p x) → (∀ y ∈ ys, p y) → xs ++ c :: u = ys ++ d :: v → xs = ys ∧ c :: u = d :: v
  | [], [], _, _, _, _, h => ⟨rfl, h⟩
  | [], y :: ys, _, _, _, hy, h => by
    injection h with h1 _; exact absurd (h1 ▸ hy y (by simp)) hc
  | x :: xs, [], _, _, hx, _, h => by
    injection h with h1 _; exact absurd (h1 ▸ hx x (by simp)) hd
  | x :: xs, y :: ys, _, _, hx, hy, h => by
    injection h with h1 h2
    obtain ⟨h3, h4⟩ := run_cancel hc hd (fun z hz => hx z (by simp [hz])) (fun z hz => hy z (by simp [hz])) h2
    exact ⟨by rw [h1, h3], h4⟩

theorem not_digit : ¬ IsDigit ',' ∧ ¬ IsDigit ' ' ∧ ¬ IsDigit '}' := by
  unfold IsDigit
  refine ⟨?_, ?_, ?_⟩ <;> (rintro ⟨k, hk, h⟩; revert h; revert k; decide)

/-- A number, then something that begins with no digit. -/
theorem digits_cancel {base : Nat} (hb : 2 ≤ base ∧ base ≤ 16) {m n : Nat} {c : Char} (hc : ¬ IsDigit c) {t u v : Text}
    (h : digits base m ++ ((c :: t) ++ u) = digits base n ++ ((c :: t) ++ v)) : m = n ∧ u = v := by
  obtain ⟨h1, h2⟩ := run_cancel hc hc (digits_mem hb m) (digits_mem hb n) h
  refine ⟨by rw [← value_digits hb m, h1, value_digits hb n], ?_⟩
  exact List.append_cancel_left (as := c :: t) h2

/-! ## Strings -/

/-- Undoes one escape. -/
def unescape (t : Text) : Option (Char × Text) :=
  match t with
  | [] => none
  | c :: r => if c = '\\' then
      match r with
      | [] => none
      | d :: r =>
        if d = 'u' then some (Char.ofNat (value 16 ((r.drop 1).takeWhile (· != '}'))), ((r.drop 1).dropWhile (· != '}')).drop 1)
        else some (if d = '0' then '\x00' else if d = 't' then '\t' else if d = 'r' then '\r' else if d = 'n' then '\n' else d, r)
    else some (c, r)

theorem unescape_escape (plain : Char → Bool) (c : Char) (u : Text) : unescape (escape plain c ++ u) = some (c, u) := by
  unfold escape
  split; · subst c; rfl
  split; · subst c; rfl
  split; · subst c; rfl
  split; · subst c; rfl
  split; · subst c; rfl
  split; · subst c; rfl
  split
  case isTrue h5 h6 => simp only [List.cons_append, List.nil_append, unescape, if_neg ‹¬ c = '\\'›]
  case isFalse h5 h6 =>
    have hall : ∀ x ∈ digits 16 c.toNat, (x != '}') = true := by
      intro x hx
      have := digits_mem (base := 16) (by omega) _ x hx
      simp only [bne_iff_ne, ne_eq]
      rintro rfl
      exact not_digit.2.2 this
    have e1 : (digits 16 c.toNat ++ ('}' :: u)).takeWhile (· != '}') = digits 16 c.toNat := by
      rw [List.takeWhile_append_of_pos hall]; simp
    have e2 : (digits 16 c.toNat ++ ('}' :: u)).dropWhile (· != '}') = '}' :: u := by
      rw [List.dropWhile_append_of_pos hall]; simp
    have e3 : ['\\', 'u', '{'] ++ digits 16 c.toNat ++ ['}'] ++ u = '\\' :: 'u' :: '{' :: (digits 16 c.toNat ++ ('}' :: u)) := by simp
    rw [e3]
    simp only [unescape, if_true, List.drop_succ_cons, List.drop_zero, e1, e2, value_digits (base := 16) (by omega), Char.ofNat_toNat]

theorem escape_cancel {plain : Char → Bool} {c d : Char} {u v : Text} (h : escape plain c ++ u = escape plain d ++ v) : c = d ∧ u = v := by
  have := unescape_escape plain c u
  rw [h, unescape_escape] at this
  injection this with this
  injection this with h1 h2
  exact ⟨h1.symm, h2.symm⟩

theorem escape_head {plain : Char → Bool} {c : Char} {u v : Text} : escape plain c ++ u ≠ '"' :: v := by
  intro h
  have := unescape_escape plain c u
  rw [h] at this
  simp only [unescape, show ¬ ('"' : Char) = '\\' by decide, if_false, Option.some.injEq, Prod.mk.injEq] at this
  obtain ⟨rfl, rfl⟩ := this
  simp [escape] at h

theorem str_body {plain : Char → Bool} : ∀ {s t u v : Text}, s.flatMap (escape plain) ++ '"' :: u = t.flatMap (escape plain) ++ '"' :: v → s = t ∧ u = v
  | [], [], _, _, h => ⟨rfl, by injection h⟩
  | [], d :: t, u, v, h => by
    rw [List.flatMap_cons, List.append_assoc] at h; exact absurd h.symm escape_head
  | c :: s, [], u, v, h => by
    rw [List.flatMap_cons, List.append_assoc] at h; exact absurd h escape_head
  | c :: s, d :: t, u, v, h => by
    simp only [List.flatMap_cons, List.append_assoc] at h
    obtain ⟨rfl, h2⟩ := escape_cancel h
    obtain ⟨rfl, h3⟩ := str_body h2
    exact ⟨rfl, h3⟩

theorem str_readable (plain : Char → Bool) : Readable (str plain) := by
  intro s t u v h
  simp only [str, List.append_assoc, List.cons_append, List.nil_append, List.cons.injEq, true_and] at h
  exact str_body h

/-! ## Structs -/

theorem between_cons (k : Form) : ∃ t, between k = ',' :: t := by cases k <;> exact ⟨_, rfl⟩

theorem closeStruct_cons (k : Form) : ∃ c t, closeStruct k = c :: t ∧ ¬ IsDigit c := by
  cases k
  · exact ⟨' ', _, rfl, not_digit.2.1⟩
  · exact ⟨',', _, rfl, not_digit.1⟩

/-- Two fields that can be read where a comma or a space follows. -/
theorem struct2_readable {α β γ : Type} (k : Form) (name f1 f2 : Text) (w1 : α → Text) (w2 : β → Text) (g1 : γ → α) (g2 : γ → β)
    (h1 : ∀ x y c t u v, ¬ IsDigit c → w1 x ++ ((c :: t) ++ u) = w1 y ++ ((c :: t) ++ v) → x = y ∧ u = v)
    (h2 : ∀ x y c t u v, ¬ IsDigit c → w2 x ++ ((c :: t) ++ u) = w2 y ++ ((c :: t) ++ v) → x = y ∧ u = v)
    (hg : ∀ x y, g1 x = g1 y → g2 x = g2 y → x = y) : Readable fun x => struct2 k name f1 (w1 (g1 x)) f2 (w2 (g2 x)) := by
  intro x y u v h
  obtain ⟨t1, e1⟩ := between_cons k
  obtain ⟨c, t2, e2, hc⟩ := closeStruct_cons k
  simp only [struct2, List.append_assoc, List.append_cancel_left_eq, e1, e2] at h
  obtain ⟨a1, h⟩ := h1 _ _ _ _ _ _ not_digit.1 h
  simp only [List.append_cancel_left_eq] at h
  obtain ⟨a2, h⟩ := h2 _ _ _ _ _ _ hc h
  exact ⟨hg _ _ a1 a2, h⟩

theorem dec_field (x y : Nat) (c : Char) (t u v : Text) (hc : ¬ IsDigit c) (h : digits 10 x ++ ((c :: t) ++ u) = digits 10 y ++ ((c :: t) ++ v)) : x = y ∧ u = v :=
  digits_cancel (by omega) hc h

theorem Readable.field {α : Type} {f : α → Text} (h : Readable f) (x y : α) (c : Char) (t u v : Text) (_ : ¬ IsDigit c) (e : f x ++ ((c :: t) ++ u) = f y ++ ((c :: t) ++ v)) :
    x = y ∧ u = v := by
  obtain ⟨h1, h2⟩ := h _ _ _ _ e
  exact ⟨h1, List.append_cancel_left (as := c :: t) h2⟩

theorem position_readable (k : Form) : Readable (position k) :=
  struct2_readable k _ _ _ _ _ Position.line Position.offset dec_field dec_field fun _ _ h1 h2 => by
    rename_i x y; cases x; cases y; simp_all

theorem distance_readable (k : Form) : Readable (distance k) :=
  struct2_readable k _ _ _ _ _ Distance.lines Distance.offset dec_field dec_field fun _ _ h1 h2 => by
    rename_i x y; cases x; cases y; simp_all

theorem lineRange_readable (k : Form) : Readable (lineRange k) :=
  struct2_readable k _ _ _ _ _ LineRange.start LineRange.stop dec_field dec_field fun _ _ h1 h2 => by
    rename_i x y; cases x; cases y; simp_all

theorem range_readable (k : Form) : Readable (range k) :=
  struct2_readable k _ _ _ _ _ Range.start Range.stop (Readable.field (position_readable k.inner)) (Readable.field (position_readable k.inner)) fun _ _ h1 h2 => by
    rename_i x y; cases x; cases y; simp_all

theorem token_newline {K : Type} (plain : Char → Bool) (scope : Form → K → Text) (k : Form) : token plain scope k .newline = "Newline".toList := rfl

theorem token_lexeme {K : Type} (plain : Char → Bool) (scope : Form → K → Text) (k : Form) (v : Text) (s : K) (p : Position) :
    token plain scope k (.lexeme v s p) = "Lexeme".toList ++ openTuple k ++ lexeme plain scope k.inner v s p ++ closeTuple k := rfl

theorem newline_lexeme (a b : Text) : "Newline".toList ++ a ≠ "Lexeme".toList ++ b := by
  intro e
  rw [show "Newline".toList = 'N' :: "ewline".toList from by decide, show "Lexeme".toList = 'L' :: "exeme".toList from by decide] at e
  injection e with e
  exact absurd e (by decide)

theorem lexeme_readable {K : Type} (plain : Char → Bool) (scope : Form → K → Text) (hs : ∀ k, Readable (scope k)) (k : Form) (v v' : Text) (s s' : K) (p p' : Position) (x y : Text)
    (h : lexeme plain scope k v s p ++ x = lexeme plain scope k v' s' p' ++ y) : v = v' ∧ s = s' ∧ p = p' ∧ x = y := by
  unfold lexeme at h
  generalize "Lexeme".toList = a1 at h
  generalize "value: ".toList = a2 at h
  generalize "scope: ".toList = a3 at h
  generalize "position: ".toList = a4 at h
  simp only [List.append_assoc, List.append_cancel_left_eq] at h
  obtain ⟨e1, h2⟩ := str_readable plain _ _ _ _ h
  simp only [List.append_cancel_left_eq] at h2
  obtain ⟨e2, h3⟩ := hs _ _ _ _ _ h2
  simp only [List.append_cancel_left_eq] at h3
  obtain ⟨e3, h4⟩ := position_readable _ _ _ _ _ h3
  simp only [List.append_cancel_left_eq] at h4
  exact ⟨e1, e2, e3, h4⟩

theorem token_readable {K : Type} (plain : Char → Bool) (scope : Form → K → Text) (hs : ∀ k, Readable (scope k)) (k : Form) : Readable (token plain scope k) := by
  intro x y u v
  cases x <;> cases y
  · rw [token_newline, List.append_cancel_left_eq]
    exact fun h => ⟨rfl, h⟩
  · rw [token_newline, token_lexeme, List.append_assoc, List.append_assoc, List.append_assoc]
    exact fun h => absurd h (newline_lexeme _ _)
  · rw [token_newline, token_lexeme, List.append_assoc, List.append_assoc, List.append_assoc]
    exact fun h => absurd h.symm (newline_lexeme _ _)
  · rw [token_lexeme, token_lexeme]
    simp only [List.append_assoc, List.append_cancel_left_eq]
    intro h
    obtain ⟨rfl, rfl, rfl, h2⟩ := lexeme_readable plain scope hs _ _ _ _ _ _ _ _ _ h
    exact ⟨rfl, List.append_cancel_left h2⟩

theorem digits_toString (n : Nat) : digits 10 n = (toString n).toList := by
  rw [show (toString n).toList = Nat.toDigits 10 n from Nat.toList_repr]
  induction n using Nat.strongRecOn with
  | ind n ih =>
    rw [digits]
    split
    case isTrue h => rw [Nat.toDigits_of_lt_base (by omega)]
    case isFalse h => rw [ih _ (Nat.div_lt_self (by omega) (by omega)), Nat.toDigits_of_base_le (n := n) (by omega) (by omega)]

end Scribe.Debug
