import Verif.Oracle.Rest
import Verif.Spec.Overlap
/-! # Executable forms of C99 -/
namespace Scribe.Oracle
open Spec Props

/-- The first `m` files and the first `k` saves are compared; `bs` are their buffers (the others are like the first one). -/
def o_C99_exact (b0 : FileBuf Nat) (bs : List (FileBuf Nat)) (disk0 : Disk) (ts : List Tick) (m k : Nat) : Bool :=
  let bufs i := (bs[i]?).getD b0
  imp ((b0 :: bs).all (fun b => b.buf.data.toStr.isOk) = true) <|
    let texts i := enc ((bufs i).buf.data.toStr.toOption.getD [])
    let p := Scribes.start.steps texts (fun i => (bufs i).path.getD [] ≠ []) ts
    okAnd (Savers.steps ⟨disk0, bufs, fun _ => .before⟩ ts) fun s =>
      (List.range m).all (fun n => decide (s.disk n = match p.sheaf n with | none => disk0 n | some x => some (Scribes.bytes texts x))) &&
      (List.range k).all fun i => [Ending.ok, .err, .crash].all (fun e => decide (s.stage i = .ended e ↔ p.progress i = .ended e)) &&
        decide (s.bufs i = if p.progress i = .ended .ok then { bufs i with buf := (bufs i).buf.setMark } else bufs i)

/-- One save alone is `save`. -/
def o_C99_alone (b : FileBuf Nat) (disk : Disk) (who : Nat) (file : Option Nat) (ws : List WriteRes) (m : Nat) : Bool :=
  okImp b.buf.data.toStr fun _ => okImp (b.save ⟨some file, ws⟩ disk) fun r =>
    okAnd (Savers.steps ⟨disk, fun _ => b, fun _ => .before⟩ (.create who file :: ws.map (.write who))) fun s =>
      (List.range m).all (fun n => decide (s.disk n = final disk r.1 n)) && decide (s.bufs who = r.2.2) &&
        [Ending.ok, .err, .crash].all fun e => decide (s.stage who = .ended e ↔ r.2.1 = e ∧ r.2.1 ≠ .crash)

end Scribe.Oracle
