import Verif.Model.Lazy
import Verif.Spec.SysexOps

/-!
# What the caller's iterator does

Stated by its answers only, apart from the code that calls it.
-/

namespace Midi2

/-- The first calls of the iterator return the items of `l`, in order; nothing is said about
what comes after. -/
def Feed.Yields {β : Type} (f : Feed β) (l : List β) : Prop :=
  ∀ i (h : i < l.length), f.poll i = .item l[i]

/-- The iterator returns the items of `l` and then says `None`; what it would do after that does
not matter, so it need not be fused. -/
def Feed.Ends {β : Type} (f : Feed β) (l : List β) : Prop :=
  f.Yields l ∧ f.poll l.length = .none

/-- The iterator returns the items of `l` and panics when asked for more. -/
def Feed.Crashes {β : Type} (f : Feed β) (l : List β) : Prop :=
  f.Yields l ∧ f.poll l.length = .panic

/-- The iterator never says `None` and never panics. -/
def Feed.Endless {β : Type} (f : Feed β) : Prop :=
  ∀ n, ∃ v, f.poll n = .item v

/-- A message as a user needs it: it has the group and the payload, it is a complete message on
the wire, and it can be spliced.  `fixed` says whether the buffer is of fixed size. -/
structure Sx.Ready (k : Sx) (dbg fixed : Bool) (b : Buf .ump) (g : BitVec 4) (l : List k.Byte) :
    Prop where
  group : Sx.group b = .ok g
  payload : k.payloadList b = .ok l
  message : ∃ sizes, k.layout.IsMessage b g.toNat sizes ∧ k.layout.Spliceable dbg fixed b sizes

end Midi2
