import Verif.Spec.Discovery

/-!
# C87: function block discovery

The same as in Spec/Discovery.lean for function blocks: a `FunctionBlockDiscovery` message asks for
one function block, or for all of them, and is answered with `FunctionBlockInfo` and
`FunctionBlockName` messages.
-/

namespace Midi2.Discovery

open Rx

/-- The arguments of the setters of `FunctionBlockInfo`. -/
structure BlockInfo where
  active : Bool
  number : BitVec 7
  firstGroup : BitVec 4
  groups : BitVec 8
  ciVersion : BitVec 8
  ciStreams : BitVec 8
  uiHint : UiHint
  midi1Port : Option Midi1Port
  direction : Direction
deriving DecidableEq

/-- A function block: its properties and its name. -/
structure Block where
  info : BlockInfo
  name : String

/-- The arguments of the setters of `FunctionBlockDiscovery`; the number `0xFF` asks for all blocks. -/
structure BlockRequest where
  number : BitVec 8
  info : Bool
  name : Bool

/-- Whether the block is asked for. -/
def BlockRequest.wants (r : BlockRequest) (b : Block) : Bool :=
  r.number == 0xFF || r.number == b.info.number.setWidth 8

/-- What the side that asks has been told, in the order in which it came in. -/
structure BlocksTold where
  infos : List BlockInfo
  names : List (BitVec 8 × String)
deriving DecidableEq

/-- What it should have been told. -/
def blocksTold (blocks : List Block) (r : BlockRequest) : BlocksTold where
  infos := if r.info then (blocks.filter r.wants).map Block.info else []
  names := if r.name then
    (blocks.filter r.wants).map fun b => (b.info.number.setWidth 8, b.name) else []

/-- The side that asks: `FunctionBlockDiscovery::<[u32; 4]>::new()`, the setters, `data()`. -/
def askBlocks (r : BlockRequest) : Res (UmpKind × List (BitVec 32)) := do
  let b ← Msg.streamFunctionBlockDiscovery.newArray .ump 4
  let b ← runSetters .ump
    [⟨"function_block_number", .schema .u8 ⟨0x0000FF00, 0, 0, 0⟩, r.number⟩,
     ⟨"requesting_function_block_info", .schema .bool ⟨0x00000002, 0, 0, 0⟩, r.info⟩,
     ⟨"requesting_function_block_name", .schema .bool ⟨0x00000001, 0, 0, 0⟩, r.name⟩] b
  return (.fixed Msg.streamFunctionBlockDiscovery, ← Msg.streamFunctionBlockDiscovery.data .ump b)

/-- The setters of `FunctionBlockInfo`. -/
def BlockInfo.calls (i : BlockInfo) : List SetCall :=
  [⟨"active", .schema .bool ⟨0x00008000, 0, 0, 0⟩, i.active⟩,
   ⟨"function_block_number", .schema .u7 ⟨0x00007F00, 0, 0, 0⟩, i.number⟩,
   ⟨"first_group", .schema .u4 ⟨0, 0x0F000000, 0, 0⟩, i.firstGroup⟩,
   ⟨"number_of_groups_spanned", .schema .u8 ⟨0, 0x00FF0000, 0, 0⟩, i.groups⟩,
   ⟨"midi_ci_version", .schema .u8 ⟨0, 0x0000FF00, 0, 0⟩, i.ciVersion⟩,
   ⟨"max_number_of_midi_ci_streams", .schema .u8 ⟨0, 0x000000FF, 0, 0⟩, i.ciStreams⟩,
   ⟨"ui_hint", .uiHint, i.uiHint⟩,
   ⟨"midi1_port", .midi1Port, i.midi1Port⟩,
   ⟨"direction", .direction, i.direction⟩]

/-- `FunctionBlockName::<Vec<u32>>::new()`, `set_name`, then `set_function_block`, `data()`. -/
def makeName (b : Block) : Res (UmpKind × List (BitVec 32)) := do
  let x ← StreamText.functionBlockName.newVec
  let x ← StreamText.functionBlockName.setText x b.name
  let x := StreamText.setBlock x (b.info.number.setWidth 8)
  return (.streamText .functionBlockName, ← StreamText.data x)

/-- The device: what it sends for a request, block by block. -/
def answerBlocks (r : BlockRequest) : List Block → Res (List (UmpKind × List (BitVec 32)))
  | [] => .ok []
  | b :: bs => do
    let r1 ← ifAsked (r.wants b && r.info) (make Msg.streamFunctionBlockInfo b.info.calls)
    let r2 ← ifAsked (r.wants b && r.name) (makeName b)
    let rs ← answerBlocks r bs
    return r1 ++ r2 ++ rs

/-- What it sends for a message that has come in. -/
def answerB (blocks : List Block) (m : UmpKind × List (BitVec 32)) :
    Res (List (UmpKind × List (BitVec 32))) :=
  if m.1 = .fixed Msg.streamFunctionBlockDiscovery then do
    let number : BitVec 8 ← (Fld.schema .u8 ⟨0x0000FF00, 0, 0, 0⟩).read .ump m.2
    let info : Bool ← (Fld.schema .bool ⟨0x00000002, 0, 0, 0⟩).read .ump m.2
    let name : Bool ← (Fld.schema .bool ⟨0x00000001, 0, 0, 0⟩).read .ump m.2
    answerBlocks ⟨number, info, name⟩ blocks
  else .ok []

/-- The same for one message after the other. -/
def answersB (blocks : List Block) :
    List (UmpKind × List (BitVec 32)) → Res (List (UmpKind × List (BitVec 32)))
  | [] => .ok []
  | m :: ms => do
    let r ← answerB blocks m
    let rs ← answersB blocks ms
    return r ++ rs

/-- The getters of `FunctionBlockInfo`. -/
def readBlockInfo (b : List (BitVec 32)) : Res BlockInfo := do
  return ⟨← (Fld.schema .bool ⟨0x00008000, 0, 0, 0⟩).read .ump b,
    ← (Fld.schema .u7 ⟨0x00007F00, 0, 0, 0⟩).read .ump b,
    ← (Fld.schema .u4 ⟨0, 0x0F000000, 0, 0⟩).read .ump b,
    ← (Fld.schema .u8 ⟨0, 0x00FF0000, 0, 0⟩).read .ump b,
    ← (Fld.schema .u8 ⟨0, 0x0000FF00, 0, 0⟩).read .ump b,
    ← (Fld.schema .u8 ⟨0, 0x000000FF, 0, 0⟩).read .ump b,
    ← Fld.uiHint.read .ump b, ← Fld.midi1Port.read .ump b, ← Fld.direction.read .ump b⟩

/-- The side that asks: it reads the answers and leaves other messages alone. -/
def learnB (k : BlocksTold) (m : UmpKind × List (BitVec 32)) : Res BlocksTold :=
  if m.1 = .fixed Msg.streamFunctionBlockInfo then do
    return { k with infos := k.infos ++ [← readBlockInfo m.2] }
  else if m.1 = .streamText .functionBlockName then do
    return { k with names := k.names ++
      [(← StreamText.block m.2, ← StreamText.functionBlockName.text m.2)] }
  else .ok k

/-- The same for one message after the other. -/
def learnAllB (k : BlocksTold) : List (UmpKind × List (BitVec 32)) → Res BlocksTold
  | [] => .ok k
  | m :: ms => do
    let k ← learnB k m
    learnAllB k ms

end Midi2.Discovery
