import Verif.Lemmas.SysexOps
import Verif.Lemmas.SpliceAny

/-! # Splicing a buffer of fixed size with any size hint -/

namespace Midi2

namespace Sx

theorem splice_fixed_any_of (k : Sx) {dbg : Bool} {I : Buf .ump → Prop} {g : BitVec 4}
    {N : Nat} {R : Buf .ump → List k.Byte → Prop}
    (L : SxLawsAll (k.ops dbg .fixed) R (Strict k dbg I g (some N)) (k.limit (some N)))
    {b b0 : Buf .ump} (hN : k.stride ≤ N) {l : List k.Byte} (hc : k.compact b = .ok b0)
    (h : R b0 l) (d : Src k.Byte) (rb re : Bound)
    (h1 : rb.first ≤ re.last l.length) (h2 : re.last l.length ≤ l.length) :
    (k.stride * k.count (spliced l rb.first (re.last l.length) d.items).length ≤ N →
      ∃ b' t, (k.ops dbg .fixed).trySplice b d rb re = .ok (b', none) ∧
        t.length = d.items.length + (l.length - re.last l.length) ∧
        Strict k dbg I g (some N) b' (l.take rb.first ++ t)) ∧
    (N < k.stride * k.count (spliced l rb.first (re.last l.length) d.items).length →
      ∃ b', (k.ops dbg .fixed).trySplice b d rb re = .ok (b', some .bufferOverflow) ∧
        Strict k dbg I g (some N) b' []) := by
  have key := L.trySplice_any (s := b) (s0 := b0) d rb re l rb.first
    (re.last l.length - rb.first) (l.length - re.last l.length) hc h (by omega)
    (spliceBegin_eq rb) (by rw [spliceEnd_eq]; omega)
  have hlen : (spliced l rb.first (re.last l.length) d.items).length =
      rb.first + d.items.length + (l.length - re.last l.length) := by
    unfold spliced
    simp only [List.length_append, List.length_take, List.length_drop]; omega
  rw [hlen]
  have hfit : Fits (k.limit (some N)) (rb.first + d.items.length + (l.length - re.last l.length)) ↔
      k.stride * k.count (rb.first + d.items.length + (l.length - re.last l.length)) ≤ N := by
    rw [← k.limit_iff hN]
    constructor
    · intro hf; exact hf _ rfl
    · intro hf c hc; cases hc; exact hf
  exact ⟨fun hf => key.1 (hfit.mpr hf), fun hf => key.2 (fun c => by have := hfit.mp c; omega)⟩

theorem splice_fixed_any (k : Sx) {dbg : Bool} {I : Buf .ump → Prop} (hI : Inv k I true) {g : BitVec 4}
    {b b0 : Buf .ump} {N : Nat} (hN : k.stride ≤ N) {l : List k.Byte} (hc : k.compact b = .ok b0)
    (h : Loose k dbg I g (some N) b0 l) (d : Src k.Byte) (rb re : Bound)
    (h1 : rb.first ≤ re.last l.length) (h2 : re.last l.length ≤ l.length) :
    (k.stride * k.count (spliced l rb.first (re.last l.length) d.items).length ≤ N →
      ∃ b' t, (k.ops dbg .fixed).trySplice b d rb re = .ok (b', none) ∧
        t.length = d.items.length + (l.length - re.last l.length) ∧
        Strict k dbg I g (some N) b' (l.take rb.first ++ t)) ∧
    (N < k.stride * k.count (spliced l rb.first (re.last l.length) d.items).length →
      ∃ b', (k.ops dbg .fixed).trySplice b d rb re = .ok (b', some .bufferOverflow) ∧
        Strict k dbg I g (some N) b' []) :=
  splice_fixed_any_of k (laws k dbg g (some N) hI) hN hc h d rb re h1 h2

end Sx

end Midi2
