import Verif.Model.BitOps

/-!
# Slice iteration helpers

`slice::chunks`, `slice::chunks_exact` and `validate_sysex_group_statuses` /
`sysex_group_consistent_groups` of /repo/midi2/src/detail/helpers.rs.
-/

namespace Midi2

/-- Worker for `chunksExact`; `fuel` bounds the number of chunks.
(/repo/midi2/src/sysex7.rs:272). -/
def chunksExactAux {α : Type} (k : Nat) : Nat → List α → List (List α)
  | 0, _ => []
  | fuel + 1, l =>
    if k ≤ l.length then l.take k :: chunksExactAux k fuel (l.drop k) else []

/-- `slice::chunks_exact(k)` (std): consecutive chunks of exactly `k` elements;
a shorter remainder is not visited.
E.g. /repo/midi2/src/sysex7.rs:272, /repo/midi2/src/detail/helpers.rs:20. -/
def chunksExact {α : Type} (k : Nat) (l : List α) : List (List α) :=
  chunksExactAux k (l.length / k) l

/-- Worker for `chunks`. (/repo/midi2/src/detail/helpers.rs:60). -/
def chunksAux {α : Type} (k : Nat) : Nat → List α → List (List α)
  | 0, _ => []
  | fuel + 1, l =>
    if l = [] then [] else l.take k :: chunksAux k fuel (l.drop k)

/-- `slice::chunks(k)` (std): like `chunks_exact` but a shorter last chunk is
visited too. /repo/midi2/src/detail/helpers.rs:60. -/
def chunks {α : Type} [DecidableEq α] (k : Nat) (l : List α) : List (List α) :=
  chunksAux k l.length l

/-- Mutation of a slice through `chunks_exact_mut(k)`: the chunks are rewritten by
`f`, the remainder is untouched.
E.g. /repo/midi2/src/sysex8.rs:126-132, /repo/midi2/src/ump_stream/function_block_name.rs:77-79.
-/
def onChunksExact {α : Type} (k : Nat) (l : List α) (f : List (List α) → List (List α)) : List α :=
  (f (chunksExact k l)).flatten ++ l.drop (k * (l.length / k))

/-- First word of a chunk, `packet[0]` (chunks are never empty, so this never
panics). E.g. /repo/midi2/src/detail/helpers.rs:4-7. -/
def head0 (p : List (BitVec 32)) : BitVec 32 := p.headD 0

/-- Rewriting `packet[0]` of a chunk. E.g. /repo/midi2/src/sysex8.rs:131. -/
def modifyHead0 (f : BitVec 32 → BitVec 32) : List (BitVec 32) → List (BitVec 32)
  | [] => []
  | w :: t => f w :: t

/-- `validate_sysex_group_statuses` (helpers.rs:43-90): the tail of the loop,
lines 80-87.  The list holds the packets left in the peekable iterator. -/
def validateStatusesLoop (isContinue isEnd : List (BitVec 32) → Bool) :
    List (List (BitVec 32)) → Res Unit
  | [] => .ok ()
  | [p] => if isEnd p then .ok () else .err .invalidData
  | p :: q :: rest =>
    if isContinue p then validateStatusesLoop isContinue isEnd (q :: rest)
    else .err .invalidData

/-- `validate_sysex_group_statuses` (helpers.rs:43-90).  The packets come from
`chunks(stride)` (not `chunks_exact`) cut at the first packet of another type. -/
def validateStatuses (isComplete isBegin isContinue isEnd : List (BitVec 32) → Bool)
    (stride : Nat) (umpType : BitVec 4) (buffer : List (BitVec 32)) : Res Unit :=
  match (chunks stride buffer).takeWhile (fun p => U32.nibble (head0 p) 0 == umpType) with
  | [] => .err .invalidData
  | [p] => if isComplete p then .ok () else .err .invalidData
  | p :: rest =>
    if isBegin p then validateStatusesLoop isContinue isEnd rest else .err .invalidData

/-- `sysex_group_consistent_groups` (helpers.rs:12-28).  The closure indexes
`buffer[0]` only for a visited chunk, so the buffer is non-empty then. -/
def consistentGroups (stride : Nat) (umpType : BitVec 4) (buffer : List (BitVec 32)) : Res Unit :=
  Res.check (((chunksExact stride buffer).takeWhile
      (fun p => U32.nibble (head0 p) 0 == umpType)).all
    (fun p => U32.nibble (head0 p) 1 == U32.nibble (head0 buffer) 1))

end Midi2
