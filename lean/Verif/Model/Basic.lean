/-!
# Outcomes and buffers

Common vocabulary of the model.

* A Rust call has one of three outcomes: it returns a value (`ok`), returns an
  `Err` (`err`), or panics (`panic`).
* A buffer (`B : Buffer`, /repo/midi2/src/buffer.rs) is the list of its units.
-/

namespace Midi2

/-- Error types of the crate: `error::InvalidData` and `error::BufferOverflow`
(/repo/midi2/src/error.rs:1-30).  The explanatory string inside `InvalidData`
is dropped here and modelled in `Model/Refusal.lean`. -/
inductive Error where
  | invalidData
  | bufferOverflow
deriving DecidableEq, Repr

/-- Outcome of a Rust call: a returned value, a returned `Err`, or a panic.
Every fallible function of the crate returns such a `Result`, e.g. /repo/midi2/src/error.rs:1-5,
/repo/midi2/src/traits.rs:578-588; panics are those of indexing, `unwrap` and `expect`. -/
inductive Res (α : Type) where
  | ok (a : α)
  | err (e : Error)
  | panic
deriving DecidableEq, Repr

namespace Res

/-- Sequencing of calls: `?` on `Err`, unwinding on panic.
E.g. /repo/midi2/src/packet.rs:51-71, /repo/midi2/src/sysex7.rs:388. -/
@[inline] def bind {α β : Type} (x : Res α) (f : α → Res β) : Res β :=
  match x with
  | ok a => f a
  | err e => err e
  | panic => panic

/-- Sequencing of Rust statements as `do` notation (`?`, e.g. /repo/midi2/src/packet.rs:51-71).
-/
instance : Monad Res where
  pure := ok
  bind := bind

@[simp] theorem pure_eq {α : Type} (a : α) : (pure a : Res α) = ok a := rfl
@[simp] theorem ok_bind {α β : Type} (a : α) (f : α → Res β) : (ok a >>= f) = f a := rfl
@[simp] theorem err_bind {α β : Type} (e : Error) (f : α → Res β) :
    ((err e : Res α) >>= f) = err e := rfl
@[simp] theorem panic_bind {α β : Type} (f : α → Res β) :
    ((panic : Res α) >>= f) = panic := rfl

/-- The laws of that sequencing: no code of its own, it lets proofs rewrite the `do` blocks
which model e.g. /repo/midi2/src/packet.rs:28-72. -/
instance : LawfulMonad Res := LawfulMonad.mk'
  (id_map := by intro α x; cases x <;> rfl)
  (pure_bind := by intros; rfl)
  (bind_assoc := by intro α β γ x f g; cases x <;> rfl)

/-- The call returned normally. The `Ok` arm of a `Result`, e.g. /repo/midi2/src/sysex7.rs:750. -/
def isOk {α : Type} : Res α → Bool
  | ok _ => true
  | _ => false

/-- `.unwrap()` / `.expect()`: an `Err` becomes a panic.
E.g. /repo/midi2/src/sysex7.rs:330, /repo/midi2/src/sysex7.rs:266. -/
def unwrap {α : Type} : Res α → Res α
  | ok a => ok a
  | err _ => panic
  | panic => panic

/-- `assert!` / `panic!` guard. E.g. /repo/midi2/src/sysex7/packet.rs:128. -/
def assert (b : Bool) : Res Unit := if b then ok () else panic

/-- `if cond { Ok(()) } else { Err(InvalidData(..)) }`.
E.g. /repo/midi2/src/detail/helpers.rs:19-27. -/
def check (b : Bool) : Res Unit := if b then ok () else err .invalidData

@[simp] theorem isOk_ok {α : Type} (a : α) : (ok a).isOk = true := rfl
@[simp] theorem isOk_err {α : Type} (e : Error) : (err e : Res α).isOk = false := rfl
@[simp] theorem isOk_panic {α : Type} : (panic : Res α).isOk = false := rfl
@[simp] theorem check_true : check true = ok () := rfl
@[simp] theorem check_false : check false = err .invalidData := rfl

end Res

/-- Slice indexing `buffer[i]`: panics when out of bounds. E.g. /repo/midi2/src/sysex8.rs:111. -/
def at' {α : Type} (b : List α) (i : Nat) : Res α :=
  match b[i]? with
  | some w => .ok w
  | none => .panic

/-- In-place update of one element `buffer[i] = f(buffer[i])` (also
`buffer[i].set_octet(..)` etc.): panics when out of bounds.
E.g. /repo/midi2/src/sysex8.rs:440-450. -/
def modifyAt {α : Type} (b : List α) (i : Nat) (f : α → α) : Res (List α) :=
  match b[i]? with
  | some w => .ok (b.set i (f w))
  | none => .panic

/-- Range slicing `&buffer[..n]`: panics when `n` exceeds the length.
E.g. /repo/midi2/src/sysex7.rs:426, /repo/midi2_proc/src/generate_message.rs:328-337. -/
def sliceTo {α : Type} (b : List α) (n : Nat) : Res (List α) :=
  if n ≤ b.length then .ok (b.take n) else .panic

end Midi2
