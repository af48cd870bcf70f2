import Verif.Model.UsizeText
import Verif.Spec.TextHistory

/-!
# Histories of text messages with machine integers

The same as in `Spec/TextHistory`, for the arithmetic `A` and a build with or without debug
assertions.
-/

namespace Midi2

/-- The number of octets of the text, times four, does not fit in `w` bits, and the text fills
its packets of `cap` octets. -/
def TextOverflows (w cap : Nat) (s : String) : Prop :=
  (utf8 s).length % cap = 0 ∧ 2 ^ w ≤ 4 * (utf8 s).length

instance (w cap : Nat) (s : String) : Decidable (TextOverflows w cap s) :=
  inferInstanceAs (Decidable (_ ∧ _))

namespace FlexText

/-- One call and what it reports. -/
def Op.execU (A : Arith) (dbg fixed : Bool) (b : Buf .ump) : Op → Res (Buf .ump × Option Error)
  | .setText s =>
    if fixed then
      match trySetTextU A dbg b s with
      | .ok b' => .ok (b', none)
      | .err e => .ok (b, some e)
      | .panic => .panic
    else setTextU A dbg b s >>= fun b' => .ok (b', none)
  | .setGroup g => .ok (FlexText.setGroup b g, none)
  | .setChannel c => FlexText.setChannel b c >>= fun b' => .ok (b', none)

/-- Calls one after the other. -/
def Op.execAllU (A : Arith) (dbg fixed : Bool) :
    List Op → Buf .ump → Res (Buf .ump × List (Option Error))
  | [], b => .ok (b, [])
  | o :: os, b => o.execU A dbg fixed b >>= fun x =>
    Op.execAllU A dbg fixed os x.1 >>= fun y => .ok (y.1, x.2 :: y.2)

/-- The text of a call has fewer than `2 ^ w` octets, as every text on a `w`-bit target. -/
def Op.OnTarget (w : Nat) : Op → Prop
  | .setText s => (utf8 s).length < 2 ^ w
  | _ => True

end FlexText

namespace StreamText

/-- One call and what it reports. -/
def Op.execU (A : Arith) (dbg : Bool) (t : StreamText) (fixed : Bool) (b : Buf .ump) :
    Op → Res (Buf .ump × Option Error)
  | .setText s =>
    if fixed then
      match trySetTextU A dbg t b s with
      | .ok b' => .ok (b', none)
      | .err e => .ok (b, some e)
      | .panic => .panic
    else setTextU A dbg t b s >>= fun b' => .ok (b', none)
  | .setBlock n => .ok (StreamText.setBlock b n, none)

/-- Calls one after the other. -/
def Op.execAllU (A : Arith) (dbg : Bool) (t : StreamText) (fixed : Bool) :
    List Op → Buf .ump → Res (Buf .ump × List (Option Error))
  | [], b => .ok (b, [])
  | o :: os, b => o.execU A dbg t fixed b >>= fun x =>
    Op.execAllU A dbg t fixed os x.1 >>= fun y => .ok (y.1, x.2 :: y.2)

/-- The text of a call has fewer than `2 ^ w` octets, as every text on a `w`-bit target. -/
def Op.OnTarget (w : Nat) : Op → Prop
  | .setText s => (utf8 s).length < 2 ^ w
  | _ => True

end StreamText

end Midi2
