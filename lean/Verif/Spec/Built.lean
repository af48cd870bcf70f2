import Verif.Spec.Holding
import Verif.Spec.Link
import Verif.Spec.SysexOps
import Verif.Spec.TextRun
import Verif.Spec.Ci
import Verif.Spec.Dispatch
import Verif.Model.Ci
import Verif.Spec.SysexBytes

/-!
# C80: what an application builds

A message of any type as an application makes it: a constructor, any calls of its setters, `data()`.
-/

namespace Midi2.Rx

/-- What an application does to get a message. -/
inductive Built
  /-- A message of fixed size: `new()` and calls of its setters. -/
  | fixed (d : MsgDesc) (calls : List SetCall)
  /-- `Sysex7` or `Sysex8`: `new()` and calls of `set_group` and of the methods that change the
  payload. -/
  | sysex (k : Sx) (cs : List (SxCall k))
  /-- A flex data text: `new()`, `set_text`, `set_group`, `set_optional_channel`. -/
  | flexText (t : FlexText) (os : List FlexText.Op)
  /-- A stream message with a text: `new()`, the setter of the text and that of the number. -/
  | streamText (t : StreamText) (os : List StreamText.Op)
  /-- A MIDI-CI discovery query of a version: `new()`, calls of its setters; its bytes are turned
  into a `Sysex7` over words with `into_ump`. -/
  | query (v : BitVec 8) (cs : List CiCall)

/-- The message made, with the words `data()` gives. -/
def Built.make (dbg : Bool) : Built → Res (UmpKind × List (BitVec 32))
  | .fixed d calls => do
    let b ← d.newVec .ump >>= runSetters .ump calls
    return (.fixed d, ← d.data .ump b)
  | .sysex k cs => do
    let b ← k.newVec >>= SxCall.execAll dbg cs
    return (.sysex k, ← k.data b)
  | .flexText t os => do
    let b ← t.newVec >>= fun b => FlexText.history b os
    return (.flexText t, ← FlexText.data b)
  | .streamText t os => do
    let b ← t.newVec >>= fun b => t.history b os
    return (.streamText t, ← StreamText.data b)
  | .query v cs => do
    let b ← Ci.newVec v >>= CiCall.run cs
    let x ← Ci.data b
    return (.sysex .s7, ← Sxb.fromBytes dbg x)

/-- What the receiver should read: the type of the message, and from every getter the value last
set, or the default. -/
def Built.Reads : Built → UmpKind × List (BitVec 32) → Prop
  | .fixed d calls, m => m.1 = .fixed d ∧ Holding .ump d calls m.2
  | .sysex k cs, m => m.1 = .sysex k ∧ Sx.group m.2 = .ok (SxCall.applyAll cs (0, [])).1 ∧
      k.payloadList m.2 = .ok (SxCall.applyAll cs (0, [])).2
  | .flexText t os, m => m.1 = .flexText t ∧
      FlexText.group m.2 = .ok (os.foldl FlexText.State.step .start).group ∧
      FlexText.channel m.2 = .ok ((os.foldl FlexText.State.step .start).channels 0) ∧
      FlexText.text m.2 = .ok (os.foldl FlexText.State.step .start).text
  | .streamText t os, m => m.1 = .streamText t ∧
      (t = .functionBlockName → StreamText.block m.2 =
        .ok ((os.foldl (StreamText.State.step t.capacity) .start).blocks 0)) ∧
      t.text m.2 = .ok (os.foldl (StreamText.State.step t.capacity) .start).text
  | .query v cs, m => m.1 = .sysex .s7 ∧ ∃ x, Sxb.fromUmp m.2 = .ok x ∧ Ci.tryFrom v x = .ok x ∧
      ∀ f : CiField, f.version.toNat ≤ v.toNat →
        Ci.get f x = .ok (CiCall.values cs CiField.default f)

/-- The builds considered: every type with a constructor that works (`FunctionBlockDiscovery::new()`
panics, C08) and that the receiver knows (C10), setters of the type, ranges within the payload,
texts that can be read back (C29, C32). -/
def Built.Legal : Built → Prop
  | .fixed d calls => d ∈ Msg.all ∧ d.name ≠ "ump_stream::FunctionBlockDiscovery" ∧
      ∀ c ∈ calls, c.legal d .ump
  | .sysex _ cs => SxCall.AllInRange cs (0, [])
  | .flexText t os => (∃ h, (UmpKind.flexText t, h) ∈ umpTable) ∧ UmpKind.flexText t ∉ misfiled ∧
      NulFree (os.foldl FlexText.State.step .start).text ∧
      ((utf8 (os.foldl FlexText.State.step .start).text).length % 12 ≠ 0 ∨
        (os.foldl FlexText.State.step .start).text = "")
  | .streamText t os => t ∈ StreamText.all ∧ (t = .functionBlockName ∨ ∀ o ∈ os, ∃ s, o = .setText s) ∧
      NulFree (os.foldl (StreamText.State.step t.capacity) .start).text ∧
      (t = .functionBlockName → ∀ j,
        j < textPackets 13 (utf8 (os.foldl (StreamText.State.step t.capacity) .start).text).length →
        (os.foldl (StreamText.State.step t.capacity) .start).blocks j =
          (os.foldl (StreamText.State.step t.capacity) .start).blocks 0)
  | .query v cs => (v = 1 ∨ v = 2) ∧ ∀ c ∈ cs, c.1.version.toNat ≤ v.toNat

/-! ## The same over bytes -/

/-- What an application does to get a message over bytes. -/
inductive ByteBuilt
  /-- A channel voice or system message: `new()` and calls of its setters. -/
  | fixed (d : MsgDesc) (calls : List SetCall)
  /-- `Sysex7`: `new()` and calls of the methods that change the payload. -/
  | sysex (cs : List (SxCall .s7))
  /-- A MIDI-CI discovery query of a version: `new()` and calls of its setters. -/
  | query (v : BitVec 8) (cs : List CiCall)

/-- The message made, with the bytes `data()` gives. -/
def ByteBuilt.make : ByteBuilt → Res (BytesKind × List (BitVec 8))
  | .fixed d calls => do
    let b ← d.newVec .bytes >>= runSetters .bytes calls
    return (.fixed d, ← d.data .bytes b)
  | .sysex cs => do
    let b ← Sxb.newVec >>= SxCall.execAllBytes cs
    return (.sysex7, ← Sxb.data b)
  | .query v cs => do
    let b ← Ci.newVec v >>= CiCall.run cs
    return (.sysex7, ← Ci.data b)

/-- What a receiver of the bytes should read. -/
def ByteBuilt.Reads : ByteBuilt → BytesKind × List (BitVec 8) → Prop
  | .fixed d calls, m => m.1 = .fixed d ∧ Holding .bytes d calls m.2
  | .sysex cs, m => m.1 = .sysex7 ∧ Sxb.payloadList m.2 = .ok (SxCall.applyAll cs (0, [])).2
  | .query v cs, m => m.1 = .sysex7 ∧ Ci.tryFrom v m.2 = .ok m.2 ∧
      ∀ f : CiField, f.version.toNat ≤ v.toNat →
        Ci.get f m.2 = .ok (CiCall.values cs CiField.default f)

/-- What a receiver of the message in UMP should read: the same, in group 0. -/
def ByteBuilt.ReadsUmp : ByteBuilt → UmpKind × List (BitVec 32) → Prop
  | .fixed d calls, u => u.1 = .fixed d ∧ FixedEnum.group (d, u.2) = .ok 0 ∧
      (∀ pre n f v post, calls = pre ++ ⟨n, f, v⟩ :: post → (∀ c ∈ post, c.name ≠ n) →
        f.read .ump u.2 = .ok v) ∧
      ∀ n f, (n, f) ∈ d.props → f.accessible .bytes = true → (∀ c ∈ calls, c.name ≠ n) →
        f.read .ump u.2 = .ok f.freshValue
  | .sysex cs, u => u.1 = .sysex .s7 ∧ Sx.group u.2 = .ok 0 ∧
      Sx.s7.payloadList u.2 = .ok (SxCall.applyAll cs (0, [])).2
  | .query v cs, u => u.1 = .sysex .s7 ∧ Sx.group u.2 = .ok 0 ∧ ∃ x, Sxb.fromUmp u.2 = .ok x ∧
      Ci.tryFrom v x = .ok x ∧ ∀ f : CiField, f.version.toNat ≤ v.toNat →
        Ci.get f x = .ok (CiCall.values cs CiField.default f)

/-- The builds considered: all types but `SongPositionPointer`, whose byte form the crate gives one
byte too little (C06), setters of the type, ranges within the payload. -/
def ByteBuilt.Legal : ByteBuilt → Prop
  | .fixed d calls => d ∈ Msg.hybridAll ∧ d.name ≠ "system_common::SongPositionPointer" ∧
      ∀ c ∈ calls, c.legal d .bytes
  | .sysex cs => SxCall.AllInRange cs (0, [])
  | .query v cs => (v = 1 ∨ v = 2) ∧ ∀ c ∈ cs, c.1.version.toNat ≤ v.toNat

end Midi2.Rx
