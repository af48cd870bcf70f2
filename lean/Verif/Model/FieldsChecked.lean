import Verif.Model.BitOpsFull
import Verif.Model.Fields
import Verif.Model.Sysex

/-!
# Properties and payload bytes with the assertions of the bit accessors

`Model/Fields.lean` and `Model/Sysex.lean` call the accessors without their assertions on the index
(/repo/midi2/src/detail/bit_ops.rs).  Here the same code calls them with the assertions.
-/

namespace Midi2

open BitOps

/-- `bit` of a `u32` returns a `bool` (bit_ops.rs:19-23). -/
def bitChecked (w : BitVec 32) (j : Nat) : Res Bool := do return (← get32 w j .bit).getLsbD 0

/-- `buffer[i].set_..(..)`, where the setter has an assertion (for instance schema.rs:32). -/
def updateAt {n : Nat} (b : List (BitVec n)) (i : Nat) (f : BitVec n → Res (BitVec n)) :
    Res (List (BitVec n)) := do
  let y ← f (← at' b i)
  modifyAt b i fun _ => y

/-- `UmpSchemaRepr::read` (schema.rs:28-30, 116-118, 159-161, 215-217, 245-250, 285-287, 307-309;
device_identity.rs:35-42, 53-61). -/
def repReadChecked (r : Rep) (i j : Nat) (b : List (BitVec 32)) : Res r.Ty :=
  match r with
  | .bool => do bitChecked (← at' b i) j
  | .u4 => do get32 (← at' b i) j .nibble
  | .u7 => do get32 (← at' b i) j .septet
  | .u8 => do get32 (← at' b i) j .octet
  | .u14 => do
    let w ← at' b i
    let x : BitVec 7 ← get32 w (2 * j) .septet
    let y : BitVec 7 ← get32 w (2 * j + 1) .septet
    return u14FromU7s x y
  | .u16 => do get32 (← at' b i) j .word
  | .u32 => at' b i
  | .u7x3 => do
    let w ← at' b i
    let x ← get32 w j .septet
    let y ← get32 w (j + 1) .septet
    let z ← get32 w (j + 2) .septet
    return (x, y, z)
  | .u7x4 => do
    let w ← at' b i
    let x ← get32 w j .septet
    let y ← get32 w (j + 1) .septet
    let z ← get32 w (j + 2) .septet
    let t ← get32 w (j + 3) .septet
    return (x, y, z, t)

/-- `UmpSchemaRepr::write` (schema.rs:31-33, 119-121, 162-164, 218-220, 251-256, 288-290, 310-312;
device_identity.rs:29-34, 46-52). -/
def repWriteChecked (r : Rep) (i j : Nat) (b : List (BitVec 32)) (v : r.Ty) :
    Res (List (BitVec 32)) :=
  match r, v with
  | .bool, v => updateAt b i (fun w => set32 w j .bit (BitVec.ofBool v))
  | .u4, v => updateAt b i (fun w => set32 w j .nibble v)
  | .u7, v => updateAt b i (fun w => set32 w j .septet v)
  | .u8, v => updateAt b i (fun w => set32 w j .octet v)
  | .u14, v => do
    let u7s := u14ToU7s (BitVec 7) v
    let b ← updateAt b i (fun w => set32 w (2 * j) .septet u7s.1)
    updateAt b i (fun w => set32 w (2 * j + 1) .septet u7s.2)
  | .u16, v => updateAt b i (fun w => set32 w j .word v)
  | .u32, v => modifyAt b i (fun _ => v)
  | .u7x3, (x, y, z) => do
    let b ← updateAt b i (fun w => set32 w j .septet x)
    let b ← updateAt b i (fun w => set32 w (j + 1) .septet y)
    updateAt b i (fun w => set32 w (j + 2) .septet z)
  | .u7x4, (x, y, z, t) => do
    let b ← updateAt b i (fun w => set32 w j .septet x)
    let b ← updateAt b i (fun w => set32 w (j + 1) .septet y)
    let b ← updateAt b i (fun w => set32 w (j + 2) .septet z)
    updateAt b i (fun w => set32 w (j + 3) .septet t)

/-- `<T as UmpSchemaRepr<S>>::read` (schema.rs:9-12), as `umpRead`. -/
def umpReadChecked (r : Rep) (s : UmpSchema) (b : List (BitVec 32)) : Res r.Ty :=
  match (umpImpl r).lookup s with
  | some (i, j) => repReadChecked r i j b
  | none => .panic

/-- `<T as UmpSchemaRepr<S>>::write` (schema.rs:9-12), as `umpWrite`. -/
def umpWriteChecked (r : Rep) (s : UmpSchema) (b : List (BitVec 32)) (v : r.Ty) :
    Res (List (BitVec 32)) :=
  match (umpImpl r).lookup s with
  | some (i, j) => repWriteChecked r i j b v
  | none => .panic

/-- `<T as BytesSchemaRepr<S>>::read` (schema.rs:139-141, 181-183, 198-200, 271-273). -/
def bytesReadChecked (r : Rep) (s : BytesSchema) (b : List (BitVec 8)) : Res r.Ty :=
  match r, (bytesImpl r).lookup s with
  | .u4, some (i, j) => do get8 (← at' b i) j .nibble
  | .u7, some (i, _) => do get8 (← at' b i) 0 .septet
  | .u8, some (i, _) => at' b i
  | .u14, some (i, _) => do
    let x : BitVec 7 ← get8 (← at' b i) 0 .septet
    let y : BitVec 7 ← get8 (← at' b (i + 1)) 0 .septet
    return u14FromU7s x y
  | _, _ => .panic

/-- `<T as BytesSchemaRepr<S>>::write` (schema.rs:142-144, 184-186, 201-203, 274-279). -/
def bytesWriteChecked (r : Rep) (s : BytesSchema) (b : List (BitVec 8)) (v : r.Ty) :
    Res (List (BitVec 8)) :=
  match r, v, (bytesImpl r).lookup s with
  | .u4, v, some (i, j) => updateAt b i (fun w => set8 w j .nibble v)
  | .u7, v, some (i, _) => updateAt b i (fun w => set8 w 0 .septet v)
  | .u8, v, some (i, _) => modifyAt b i (fun _ => v)
  | .u14, v, some (i, _) => do
    let u7s := u14ToU7s (BitVec 7) v
    let b ← updateAt b i (fun w => set8 w 0 .septet u7s.1)
    updateAt b (i + 1) (fun w => set8 w 0 .septet u7s.2)
  | _, _, _ => .panic

/-- The octet of the `AlterationProperty` instances (set_chord_name.rs:345-349, 371-376). -/
def alterationOctetChecked (s : UmpSchema) (b : List (BitVec 32)) : Res (BitVec 8) := do
  let (i, j) ← implOf alterationImpl s
  get32 (← at' b i) j .octet

/-- The payload byte `i` of a packet: `septet((i + 2) % 4)` (sysex7.rs:960-968, packet.rs:90),
`octet((i + 3) % 4)` (sysex8.rs:300-307, packet.rs:118). -/
def Sx.getChecked : (k : Sx) → BitVec 32 → Nat → Res k.Byte
  | .s7, w, i => get32 w ((i + 2) % 4) .septet
  | .s8, w, i => get32 w ((i + 3) % 4) .octet

/-- `set_septet((i + 2) % 4, v)` (sysex7.rs:488, 594), `set_octet((i + 3) % 4, v)`
(sysex8.rs:387, 449). -/
def Sx.setChecked : (k : Sx) → BitVec 32 → Nat → k.Byte → Res (BitVec 32)
  | .s7, w, i, v => set32 w ((i + 2) % 4) .septet v
  | .s8, w, i, v => set32 w ((i + 3) % 4) .octet v

end Midi2
