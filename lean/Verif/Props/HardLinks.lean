import Verif.Props.Desktop
import Verif.Spec.Editor
/-!
# Property C79 with hard links
-/
namespace Scribe.Props
open Spec Workspace
variable {σ : Type}

/-- C79: why there must be no hard links. Two names of one file are opened as two buffers; after editing and saving one of them, the other is reported as
unmodified, shows the old contents, and the file holds the new ones. -/
theorem C79_hard_links (S : Segmenter) (A : Alloc) (W : FileTree) (fs : Fs) (path : Path) (s : Syntaxes σ) (w0 : Workspace σ) (disk0 : Disk)
    (h0 : Workspace.new fs path (some s) = some w0) (p q : Path) (n : Nat) (t x : Text) (k k' : Nat) (hp : W.slot p = some n) (hq : W.slot q = some n)
    (hp' : W.real p = p) (hq' : W.real q = q) (hne : p ≠ q) (hq0 : q ≠ []) (ht : disk0 n = some (enc t)) :
    ∃ e b b', Editor.steps S A W ⟨w0, disk0⟩ [.openPath k true p, .openPath k' true q, .cmd (.insert x), .save ⟨some (some 0), [.wrote (blen (x ++ t))]⟩] = .ok e ∧
      contents e.ws = [b, b'] ∧ b.path = some p ∧ b'.path = some q ∧ b.buf.modified = false ∧ b'.buf.modified = false ∧
      b.buf.data.toStr = .ok t ∧ b'.buf.data.toStr = .ok (x ++ t) ∧ e.disk n = some (enc (x ++ t)) := by
  have rd : ∀ (d : Studio σ) r, W.slot r = some n → ((Desktop.mk d disk0).files W true).readToString r = some t := by
    intro d r hr
    simp [Fs.readToString, Desktop.files, hr, ht]
  have cn : ∀ (d : Studio σ) r, W.slot r = some n → W.real r = r → ((Desktop.mk d disk0).files W true).canon r = some r := by
    intro d r hr hr'
    simp [Desktop.files, hr, ht, hr']
  let z1 := ZDoc.new A.grant k t true
  let z2 := ZDoc.new A.grant k' t true
  let x1 : Sheet σ := ⟨z1, some 0, some p, some (syntaxFor s (some p))⟩
  let x2 : Sheet σ := ⟨z2, some 1, some q, some (syntaxFor s (some q))⟩
  let x3 : Sheet σ := { x2 with doc := z2.step S.segs A.grant (.insert x) }
  have e1 : Desktop.step S.segs A.grant s W ⟨noSheets, disk0⟩ (.openPath k true p) = ⟨⟨⟨[x1], 0⟩, 1⟩, disk0⟩ := by
    simp [Desktop.step, Desktop.act, Studio.act, cn _ p hp hp', rd _ p hp, Studio.find, noSheets, Tabs.selected, Studio.add, Tabs.add, x1, z1]
  have e2 : Desktop.step S.segs A.grant s W ⟨⟨⟨[x1], 0⟩, 1⟩, disk0⟩ (.openPath k' true q) = ⟨⟨⟨[x1, x2], 1⟩, 2⟩, disk0⟩ := by
    simp [Desktop.step, Desktop.act, Studio.act, cn _ q hq hq', rd _ q hq, Studio.find, Tabs.selected, Studio.add, Tabs.add, x1, x2, z2, hne, List.findIdx?_cons]
  have e3 : Desktop.step S.segs A.grant s W ⟨⟨⟨[x1, x2], 1⟩, 2⟩, disk0⟩ (.cmd (.insert x)) = ⟨⟨⟨[x1, x3], 1⟩, 2⟩, disk0⟩ := by
    simp [Desktop.step, Desktop.act, Studio.act, Tabs.edit, x3, List.modify]
    rfl
  have hz : x3.doc.zip.text = x ++ t ∧ x3.doc.undo.length = 1 := by
    have l0 : ∀ cs : List Text, locate cs ⟨0, 0⟩ = some ([], cs) := fun cs => locate_eq_some.mpr ⟨rfl, rfl⟩
    have hc : (z2.zip.call S.segs A.grant (.insert x ⟨0, 0⟩)).2.text = x ++ t := by
      simp only [Zip.call, l0, Zip.text, Zip.clusters]
      rw [List.flatten_append, S.join, S.join]
      unfold Zip.reserve
      split <;> simp [z2, ZDoc.new, Zip.fresh]
    exact ⟨hc, rfl⟩
  have hw : written [.wrote (blen (x ++ t))] (enc (x ++ t)).length = ((enc (x ++ t)).length, true) := by
    rw [length_enc]
    cases blen (x ++ t) with
    | zero => rfl
    | succ m => simp [written]
  let x4 : Sheet σ := { x3 with doc := x3.doc.step S.segs A.grant .saved }
  let disk1 : Disk := fun f => if f = n then some (enc (x ++ t)) else disk0 f
  have e4 : Desktop.step S.segs A.grant s W ⟨⟨⟨[x1, x3], 1⟩, 2⟩, disk0⟩ (.save ⟨some (some 0), [.wrote (blen (x ++ t))]⟩) = ⟨⟨⟨[x1, x4], 1⟩, 2⟩, disk1⟩ := by
    have htg : Desktop.target W x3 = some n := by
      simp only [Desktop.target, x3, x2, Option.getD_some, if_neg hq0, hq]
    simp only [Desktop.step, Desktop.save, Tabs.selected, List.getElem?_cons_succ, List.getElem?_cons_zero, htg, hz.1, hw, if_true, List.take_length]
    simp [Desktop.act, Studio.act, Tabs.edit, List.modify, x4, disk1]
  obtain ⟨e, h1, h2, -, -, h3, -⟩ :=
    C87_program S A W fs path s w0 disk0 h0 [.openPath k true p, .openPath k' true q, .cmd (.insert x), .save ⟨some (some 0), [.wrote (blen (x ++ t))]⟩]
  simp only [Desktop.steps, List.foldl_cons, List.foldl_nil, e1, e2, e3, e4] at h2 h3
  generalize hcs : contents e.ws = cs at h3
  cases h3 with
  | cons k1 h3 =>
    cases h3 with
    | cons k2 h3 =>
      cases h3
      refine ⟨e, _, _, h1, hcs, k1.path, k2.path, ?_, ?_, ?_, ?_, ?_⟩
      · rw [k1.modified]; simp [x1, z1, ZDoc.new]
      · rw [k2.modified]; simp [x4, ZDoc.step]
      · rw [k1.text]; simp [x1, z1, ZDoc.new, Zip.fresh, Zip.text]
      · rw [k2.text]; exact congrArg _ hz.1
      · rw [h2]; simp [disk1]

/-- The files `/w/a` and `/w/b` are one file. -/
def linkedTree : FileTree where
  slot p := if p = demoPath [0x61] ∨ p = demoPath [0x62] then some 0 else none
  real p := p
  leads _ _ h := h
  idem _ _ _ := rfl

example : (Editor.steps Demo.seg Demo.tight linkedTree ⟨{ path := demoPath [], buffers := [], nextId := 0, current := none, index := none, syntaxes := demoSyn },
      fun f => if f = 0 then some (enc (Demo.s "ab")) else none⟩
      [.openPath 0 true (demoPath [0x61]), .openPath 1 true (demoPath [0x62]), .cmd (.insert (Demo.s "x")), .save ⟨some (some 0), [.wrote 3]⟩]).toOption.map
        (fun e => ((contents e.ws).map fun b => (b.buf.data.toStr.toOption, b.buf.modified), e.disk 0)) =
    some ([(some (Demo.s "ab"), false), (some (Demo.s "xab"), false)], some (enc (Demo.s "xab"))) := by decide +kernel

end Scribe.Props
