import Verif.Spec.Text
import Verif.Model.Text

/-!
# Histories of calls on text messages
-/

namespace Midi2

/-- The operations on a resizable buffer. -/
def FlexText.Op.run (b : Buf .ump) : FlexText.Op → Res (Buf .ump)
  | .setText s => FlexText.setText b s
  | .setGroup g => .ok (FlexText.setGroup b g)
  | .setChannel c => FlexText.setChannel b c

/-- A history of operations. -/
def FlexText.history : Buf .ump → List FlexText.Op → Res (Buf .ump)
  | b, [] => .ok b
  | b, o :: os => o.run b >>= fun b => FlexText.history b os

/-- The operations on a resizable buffer. -/
def StreamText.Op.run (t : StreamText) (b : Buf .ump) : StreamText.Op → Res (Buf .ump)
  | .setText s => t.setText b s
  | .setBlock n => .ok (StreamText.setBlock b n)

/-- A history of operations. -/
def StreamText.history (t : StreamText) : Buf .ump → List StreamText.Op → Res (Buf .ump)
  | b, [] => .ok b
  | b, o :: os => o.run t b >>= fun b => t.history b os

end Midi2
