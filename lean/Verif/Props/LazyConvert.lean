import Verif.Lemmas.LazyConvert
import Verif.Props.Lazy
import Verif.Props.MoreExact

/-!
# C25 without exceptions, with the source read byte by byte

The destination asks the payload iterator of the source for one byte at a time.  So a byte which
the iterator cannot give matters only if the destination gets that far.

`turns` cuts the loop of the splice off after so many turns; every number of turns above the
length of the payload gives the same outcome.
-/

namespace Midi2

open Sx

/-- What was collected by `payload_list`, as a feed. -/
theorem feedUmp_ends {b : Buf .ump} {it : Sx.It} {l : List (BitVec 7)}
    (hp : Sx.s7.payload b = .ok it) (hl : Sx.s7.payloadList b = .ok l) :
    (Sxb.feedUmp b it).Ends l := by
  unfold Sx.payloadList at hl
  rw [hp] at hl
  exact Sx.feed_ends .s7 b _ it l hl

theorem feed_ends_clean (l : List (BitVec 7)) : (Sxb.feed ⟨l.map Sxb.e, 0⟩).Ends l :=
  have h := Sxb.feed_yields (l.map Sxb.e) l [] 0 (by simp)
  ⟨h.1, h.2.1 rfl⟩

theorem feed_crashes_at (l : List (BitVec 7)) (x : BitVec 8) (r : List (BitVec 8))
    (hx : 128 ≤ x.toNat) : (Sxb.feed ⟨l.map Sxb.e ++ x :: r, 0⟩).Crashes l :=
  have h := Sxb.feed_yields (l.map Sxb.e ++ x :: r) l (x :: r) 0 (by simp)
  ⟨h.1, h.2.2 x r rfl hx⟩

/-- A list of bytes is the bytes before the first of `0x80` or above, and the rest. -/
theorem top_bit_split (p : List (BitVec 8)) :
    ∃ l : List (BitVec 7), p.takeWhile (·.toNat < 128) = l.map Sxb.e ∧
      (p = l.map Sxb.e ∨ ∃ x r, 128 ≤ x.toNat ∧ p = l.map Sxb.e ++ x :: r) := by
  induction p with
  | nil => exact ⟨[], rfl, .inl rfl⟩
  | cons y p ih =>
    by_cases hy : y.toNat < 128
    · obtain ⟨l, h1, h2⟩ := ih
      obtain ⟨w, rfl, -⟩ := Sxb.u7New_ok hy
      refine ⟨w :: l, ?_, ?_⟩
      · rw [List.takeWhile_cons_of_pos (by simpa using hy), h1]; rfl
      · rcases h2 with h | ⟨x, r, hx, h⟩
        · exact .inl (by rw [h]; rfl)
        · exact .inr ⟨x, r, hx, by rw [h]; rfl⟩
    · refine ⟨[], ?_, .inr ⟨y, p, by omega, rfl⟩⟩
      rw [List.takeWhile_cons_of_neg (by simpa using hy)]; rfl

theorem run_of_result {S α : Type} (x : Res α) : (Run.of x : Run S α).result = some x := by
  cases x <;> rfl

theorem run_of_then {S α γ : Type} (x : Res α) (c : γ) :
    ((Run.of x >>= fun s => Run.ok (s, c)) >>= fun (y : α × γ) => Run.ok y.1 : Run S α) = Run.of x := by
  cases x <;> rfl

theorem run_of_try {S : Type} (x : Res (S × Option Error)) (c : Nat) :
    ((Run.of x >>= fun s => Run.ok (s.1, s.2, c)) >>= fun (y : S × Option Error × Nat) =>
      match y.2.1 with | some e => Run.err e | none => Run.ok y.1 : Run S S) =
    Run.of (x >>= fun y => match y.2 with | some e => .err e | none => .ok y.1) := by
  rcases x with ⟨s, _ | e⟩ | _ | _ <;> rfl

/-- C25: for an accepted byte message, the conversion to a growable buffer gives the message of
group 0 with the payload if every payload byte is below `0x80`, and panics otherwise. -/
theorem C25_bytes_to_ump_stepwise (dbg : Bool) (b : Buf .bytes) (h : Sxb.tryFrom b = .ok b) :
    ∃ p rest : List (BitVec 8), b = 0xF0 :: p ++ 0xF7 :: rest ∧ (0xF7 : BitVec 8) ∉ p ∧
      ∀ turns, p.length < turns →
        ((∀ x ∈ p, x.toNat < 128) → ∃ b' l, (Sxb.fromBytesLazy dbg turns b).result = some (.ok b') ∧
          Sx.s7.Holds b' 0 l ∧ l.map BitVec.toNat = p.map BitVec.toNat ∧ Sx.s7.data b' = .ok b') ∧
        ((∃ x ∈ p, 128 ≤ x.toNat) → (Sxb.fromBytesLazy dbg turns b).result = some .panic) := by
  obtain ⟨p, rest, rfl, hp⟩ := accepted_raw h
  refine ⟨p, rest, rfl, hp, fun turns ht => ?_⟩
  have hpay : Sxb.payload (Sxb.raw p rest) = .ok ⟨p, 0⟩ := Sxb.payload_raw hp
  have hz : vecResize ([] : List (BitVec 32)) 2 = List.replicate 2 0 := rfl
  obtain ⟨l, -, hl⟩ := top_bit_split p
  unfold Sxb.fromBytesLazy
  rw [hpay, hz, convert_zero (by omega)]
  simp only [Run.of_ok, Run.ok_bind]
  rcases hl with rfl | ⟨x, r, hx, rfl⟩
  · refine ⟨fun _ => ?_, fun ⟨x, hm, hx⟩ => ?_⟩
    · have hpl : Sxb.payloadList (Sxb.raw (l.map Sxb.e) rest) = .ok l := Sxb.payloadList_raw l rest
      obtain ⟨b', e1, e2, e3⟩ := C25_bytes_to_ump dbg _ h l hpl
      refine ⟨b', l, ?_, e2, ?_, e3⟩
      · rw [(C70_list (Sx.s7.ops dbg .vec) _ l (feed_ends_clean l) (0, some 0) rfl turns
          (by simpa using ht) _).2.2.2]
        have hs : Sxb.fromBytes dbg (Sxb.raw (l.map Sxb.e) rest) =
            (Sx.s7.ops dbg .vec).setPayload ((List.replicate 2 0).set 0 0x30000000) ⟨l, 0, some 0⟩ := by
          unfold Sxb.fromBytes
          rw [hz, convert_zero (by omega), raw_eq, bytes_source]
          rfl
        rw [← hs, e1]
        rfl
      · rw [List.map_map]
        exact List.map_congr_left fun v _ => (Sxb.e_toNat v).symm
    · rw [List.mem_map] at hm
      obtain ⟨v, -, rfl⟩ := hm
      rw [Sxb.e_toNat] at hx
      have := v.isLt
      omega
  · refine ⟨fun hs => absurd (hs x (by simp)) (by omega), fun _ => ?_⟩
    obtain ⟨b', gap, e, -⟩ := C69_set_payload .s7 dbg ((List.replicate 2 0).set 0 0x30000000) 0
      (by decide) _ l (feed_crashes_at l x r hx) (0, some 0) rfl turns (by
        rw [List.length_append, List.length_map] at ht; omega)
    rw [e]
    rfl

/-- C25: for an accepted byte message and an array of `n` words.  Let `q` be the payload up to the
first byte of `0x80` or above.  If the packets of `q` do not fit, the conversion says so.  If
they fit and `q` is the whole payload, it gives the message of group 0 with that payload.  If they
fit and there is such a byte, it panics. -/
theorem C25_bytes_to_ump_array_exactly (dbg : Bool) (n : Nat) (b : Buf .bytes)
    (h : Sxb.tryFrom b = .ok b) :
    ∃ p q rest : List (BitVec 8), b = 0xF0 :: p ++ 0xF7 :: rest ∧ (0xF7 : BitVec 8) ∉ p ∧
      q = p.takeWhile (·.toNat < 128) ∧
      ∀ turns, p.length < turns →
        (4 * n < sysex7Layout.wireLength q.length →
          (Sxb.tryFromBytesLazy dbg turns n b).result = some (.err .bufferOverflow)) ∧
        (sysex7Layout.wireLength q.length ≤ 4 * n → q = p →
          ∃ b' l, (Sxb.tryFromBytesLazy dbg turns n b).result = some (.ok b') ∧
            Sx.s7.Holds b' 0 l ∧ l.map BitVec.toNat = p.map BitVec.toNat ∧ b'.length = n) ∧
        (sysex7Layout.wireLength q.length ≤ 4 * n → q ≠ p →
          (Sxb.tryFromBytesLazy dbg turns n b).result = some .panic) := by
  obtain ⟨p, rest, rfl, hp⟩ := accepted_raw h
  obtain ⟨l, hq, hl⟩ := top_bit_split p
  refine ⟨p, l.map Sxb.e, rest, rfl, hp, hq.symm, fun turns ht => ?_⟩
  have hpay : Sxb.payload (Sxb.raw p rest) = .ok ⟨p, 0⟩ := Sxb.payload_raw hp
  have hmin : 8 ≤ sysex7Layout.wireLength l.length := by
    have := Sx.wireLength_eq .s7 l.length
    rw [show Sx.s7.layout = sysex7Layout from rfl] at this
    rw [this]
    have hc : 1 ≤ Sx.s7.count l.length := by
      unfold Sx.count
      split
      · omega
      · next h => exact (Nat.le_div_iff_mul_le (by decide)).mpr (by simp only [Sx.cap]; omega)
    simp only [Sx.stride]
    omega
  rw [List.length_map]
  by_cases hn : 2 > n
  · have he : (Sxb.tryFromBytesLazy dbg turns n (Sxb.raw p rest)).result =
        some (.err .bufferOverflow) := by
      unfold Sxb.tryFromBytesLazy fixedTryResize
      rw [List.length_replicate, if_pos hn]
      rfl
    exact ⟨fun _ => he, fun h => by omega, fun h => by omega⟩
  · have hlen : ((List.replicate n (0 : BitVec 32)).set 0 0x30000000).length = n := by simp
    have h0 : ((List.replicate n (0 : BitVec 32)).set 0 0x30000000)[0]? = some 0x30000000 := by
      rw [List.getElem?_set]; simp; omega
    have hz : ∀ i, 0 < i → i < ((List.replicate n (0 : BitVec 32)).set 0 0x30000000).length →
        ((List.replicate n (0 : BitVec 32)).set 0 0x30000000)[i]? = some 0 := by
      intro i h1 h2
      rw [hlen] at h2
      rw [List.getElem?_set, if_neg (by omega), List.getElem?_replicate, if_pos h2]
    have hfw : Sx.s7.freshWord = 0x30000000 := by decide
    have hg : Sx.group ((List.replicate n (0 : BitVec 32)).set 0 0x30000000) = .ok 0 := by
      unfold Sx.group at'
      rw [h0]; rfl
    have htidy : dbg = true → Sx.s7.layout.Tidy Sx.s7.layout.words
        ((List.replicate n (0 : BitVec 32)).set 0 0x30000000) :=
      fun _ => Sx.tidyFrom_iff.mp ((Sx.fresh_tidy .s7 (by rw [hfw]; exact h0) hz).from _)
    have hu : Sxb.tryFromBytesLazy dbg turns n (Sxb.raw p rest) =
        ((Sx.s7.ops dbg .fixed).feedTrySetPayload turns
          ((List.replicate n (0 : BitVec 32)).set 0 0x30000000) (Sxb.feed ⟨p, 0⟩) >>=
          fun (y : Buf .ump × Option Error × Nat) =>
            match y.2.1 with | some e => Run.err e | none => Run.ok y.1) := by
      unfold Sxb.tryFromBytesLazy fixedTryResize
      rw [List.length_replicate, if_neg hn, hpay]
      simp only [Run.of_ok, Run.ok_bind]
      rw [convert_zero (by omega)]
      rfl
    rw [hu]
    rcases hl with rfl | ⟨x, r, hx, rfl⟩
    · have hpl : Sxb.payloadList (Sxb.raw (l.map Sxb.e) rest) = .ok l := Sxb.payloadList_raw l rest
      obtain ⟨c1, c2⟩ := C25_bytes_to_ump_array dbg n _ h l hpl
      obtain ⟨calls, -, e, -⟩ := (C70_try_list (Sx.s7.ops dbg .fixed) _ l (feed_ends_clean l)
        (0, some 0) rfl turns (by simpa using ht)
        ((List.replicate n (0 : BitVec 32)).set 0 0x30000000)).2.2.2
      have hs : Sxb.tryFromBytes dbg n (Sxb.raw (l.map Sxb.e) rest) =
          ((Sx.s7.ops dbg .fixed).trySetPayload ((List.replicate n 0).set 0 0x30000000)
            ⟨l, 0, some 0⟩ >>= fun y => match y.2 with | some e => .err e | none => .ok y.1) := by
        unfold Sxb.tryFromBytes fixedTryResize
        rw [List.length_replicate, if_neg hn]
        simp only [Res.ok_bind]
        rw [convert_zero (by omega), raw_eq, bytes_source]
        rfl
      rw [e, run_of_try, ← hs, run_of_result]
      refine ⟨fun hf => by rw [c2 hf], fun hf _ => ?_, fun _ hne => absurd rfl hne⟩
      obtain ⟨b', d1, d2, d3⟩ := c1 hf
      exact ⟨b', l, by rw [d1], d2, by
        rw [List.map_map]
        exact List.map_congr_left fun v _ => (Sxb.e_toNat v).symm, d3⟩
    · have hne : l.map Sxb.e ≠ l.map Sxb.e ++ x :: r := fun he => by
        have := congrArg List.length he
        simp at this
      have ht' : List.length l < turns := by
        rw [List.length_append, List.length_map] at ht; omega
      have hc := feed_crashes_at l x r hx
      refine ⟨fun hf => ?_, fun _ he => absurd he hne, fun hf _ => ?_⟩
      · obtain ⟨b1, e1, S⟩ := clear_fixed .s7 (dbg := dbg) (inv_true .s7) (by rw [hlen]; show 2 ≤ n; omega)
          (group_word hg) trivial (fun e => by have := htidy e; rw [words_eq] at this; exact tidyFrom_iff.mpr this)
        rw [hlen] at S
        have R : Sx.s7.Ready dbg true b1 0 [] := Loose.ready (N := some n) ⟨⟨_, S.packed⟩, S.whole⟩
        have hb1 : b1.length = n := S.whole.fixed _ rfl
        obtain ⟨b', calls, e2, -⟩ := C70_overflow_partial .s7 dbg b1 0 [] R _ l hc.1 (0, some 0) rfl
          (.included 0) (.excluded 0) (by simp [Bound.first, Bound.last]) (by simp [Bound.last])
          (by simp only [spliced, Bound.first, Bound.last, List.take_nil, List.drop_nil,
                List.nil_append, List.append_nil]; rw [hb1]; exact hf) turns ht'
        unfold SxOps.feedTrySetPayload
        have e1' : (Sx.s7.ops dbg .fixed).resize
            ((List.replicate n (0 : BitVec 32)).set 0 0x30000000) 0 = .ok (b1, none) := e1
        rw [e1']
        simp only [Run.of_ok, Run.ok_bind]
        unfold SxOps.feedTryInsert
        rw [e2]
        rfl
      · obtain ⟨b', gap, e, -⟩ := C69_try_set_payload .s7 dbg _ 0
          (by rw [hlen]; show 2 ≤ n; omega) hg htidy _ l hc (0, some 0) rfl
          (by rw [hlen]; exact hf) turns ht'
        rw [e]
        rfl

/-- C25: for an accepted UMP slice.  If the last packet is complete, the conversion to a growable
buffer gives exactly `F0`, the payload, `F7`, and the conversion into an array of `n` bytes
succeeds exactly when these fit.  If it is truncated, both panic, except that an array of less
than two bytes is refused before that. -/
theorem C25_ump_to_bytes_exactly (b : Buf .ump) (h : Sx.s7.tryFrom b = .ok b) :
    (sysex7Layout.Untruncated b → ∃ l, Sx.s7.payloadList b = .ok l ∧ ∀ turns, l.length < turns →
      (Sxb.fromUmpLazy turns b).result = some (.ok (sysexBytes l)) ∧
      ∀ n, (l.length + 2 ≤ n → ∃ rest,
          (Sxb.tryFromUmpLazy turns n b).result = some (.ok (sysexBytes l ++ rest)) ∧
          (sysexBytes l ++ rest).length = n) ∧
        (n < l.length + 2 →
          (Sxb.tryFromUmpLazy turns n b).result = some (.err .bufferOverflow))) ∧
    (¬ sysex7Layout.Untruncated b → ∀ turns,
      (Sxb.fromUmpLazy turns b).result = some .panic ∧
      ∀ n, (Sxb.tryFromUmpLazy turns n b).result =
        some (if n < 2 then .err .bufferOverflow else .panic)) := by
  constructor
  · intro hu
    obtain ⟨g, sizes, M, -, l, hl, -⟩ := C23_payload_of_accepted .s7 b h hu
    refine ⟨l, hl, fun turns ht => ?_⟩
    cases hp : Sx.s7.payload b with
    | err e => unfold Sx.payloadList at hl; rw [hp] at hl; cases hl
    | panic => unfold Sx.payloadList at hl; rw [hp] at hl; cases hl
    | ok it =>
      have hf := feedUmp_ends hp hl
      have hsrc : Sxb.sourceUmp b = .ok ⟨l, (Sx.sizeHint it).1, (Sx.sizeHint it).2⟩ := by
        unfold Sxb.sourceUmp
        rw [hp, hl]
        rfl
      refine ⟨?_, fun n => ?_⟩
      · have e := C25_ump_to_bytes b g sizes M l hl
        unfold Sxb.fromUmp at e
        rw [hsrc] at e
        unfold Sxb.fromUmpLazy
        have hi : Sxb.init (vecResize ([] : List (BitVec 8)) 2) = .ok (sysexBytes []) := rfl
        rw [hi, hp]
        rw [hi] at e
        simp only [Run.of_ok, Run.ok_bind]
        simp only [Res.ok_bind] at e
        rw [(C70_list (Sxb.ops .vec) _ l hf (Sx.sizeHint it) rfl turns ht _).2.2.2, e]
        rfl
      · have e := C25_ump_to_bytes_array n b g sizes M l hl
        have hs : (Sxb.tryFromUmpLazy turns n b).result = some (Sxb.tryFromUmp n b) := by
          unfold Sxb.tryFromUmpLazy Sxb.tryFromUmp
          cases h1 : fixedTryResize (List.replicate n (0 : BitVec 8)) 2 with
          | err x => rfl
          | panic => rfl
          | ok b1 =>
            simp only [Run.of_ok, Run.ok_bind, Res.ok_bind]
            cases h2 : Sxb.init b1 with
            | err x => rfl
            | panic => rfl
            | ok b2 =>
              rw [hp, hsrc]
              simp only [Run.of_ok, Run.ok_bind, Res.ok_bind]
              obtain ⟨calls, -, e, -⟩ := (C70_try_list (Sxb.ops .fixed) _ l hf (Sx.sizeHint it) rfl
                turns ht b2).2.2.2
              rw [e]
              cases (Sxb.ops .fixed).trySetPayload b2 ⟨l, (Sx.sizeHint it).1, (Sx.sizeHint it).2⟩ with
              | err x => rfl
              | panic => rfl
              | ok y => obtain ⟨s, _ | e⟩ := y <;> rfl
        rw [hs]
        refine ⟨fun hn => ?_, fun hn => by rw [e.2 hn]⟩
        obtain ⟨rest, e1, e2⟩ := e.1 hn
        exact ⟨rest, by rw [e1], e2⟩
  · intro hu turns
    have hp : Sx.s7.payload b = .panic := by
      unfold Sx.payload
      rw [((C06_sysex_exactly .s7 b h).2 hu).1]; rfl
    refine ⟨?_, fun n => ?_⟩
    · unfold Sxb.fromUmpLazy
      have hi : Sxb.init (vecResize ([] : List (BitVec 8)) 2) = .ok (sysexBytes []) := rfl
      rw [hi, hp]
      rfl
    · unfold Sxb.tryFromUmpLazy fixedTryResize
      rw [List.length_replicate]
      by_cases hn : n < 2
      · rw [if_pos hn, if_pos hn]; rfl
      · rw [if_neg hn, if_neg hn, hp]
        simp only [Run.of_ok, Run.ok_bind]
        have hin : Sxb.init (List.replicate n 0) = .ok (sysexBytes [] ++ List.replicate (n - 2) 0) := by
          have hnew := ((C08_sysex7_bytes [] n).2.2.2.2.2 (by omega)).1
          unfold Sxb.tryNew fixedTryResize at hnew
          rw [if_neg (by rw [List.length_replicate]; omega)] at hnew
          exact hnew
        rw [hin]
        rfl

-- C25: seven bytes and then one with the top bit set, into two, three and four words.
example : Sxb.tryFrom [0xF0, 1, 2, 3, 4, 5, 6, 7, 0x80, 9, 0xF7] =
      .ok [0xF0, 1, 2, 3, 4, 5, 6, 7, 0x80, 9, 0xF7] ∧
    (Sxb.tryFromBytesLazy true 10 2 [0xF0, 1, 2, 3, 4, 5, 6, 7, 0x80, 9, 0xF7]).result =
      some (.err .bufferOverflow) ∧
    (Sxb.tryFromBytesLazy true 10 3 [0xF0, 1, 2, 3, 4, 5, 6, 7, 0x80, 9, 0xF7]).result =
      some (.err .bufferOverflow) ∧
    (Sxb.tryFromBytesLazy true 10 4 [0xF0, 1, 2, 3, 4, 5, 6, 7, 0x80, 9, 0xF7]).result =
      some .panic ∧
    (Sxb.tryFromBytesLazy true 10 4 [0xF0, 1, 2, 3, 4, 5, 6, 7, 8, 9, 0xF7]).result =
      some (.ok [0x30160102, 0x03040506, 0x30330708, 0x09000000]) ∧
    (Sxb.fromBytesLazy true 10 [0xF0, 1, 2, 3, 4, 5, 6, 7, 8, 9, 0xF7]).result =
      some (.ok [0x30160102, 0x03040506, 0x30330708, 0x09000000]) := by decide +kernel

-- C25: a whole message and a truncated one.
example : Sx.s7.tryFrom [0x35160001, 0x02030405, 0x35310600] =
      .ok [0x35160001, 0x02030405, 0x35310600] ∧
    (Sxb.fromUmpLazy 9 [0x35160001, 0x02030405, 0x35310600, 0]).result =
      some (.ok [0xF0, 0, 1, 2, 3, 4, 5, 6, 0xF7]) ∧
    (Sxb.tryFromUmpLazy 9 8 [0x35160001, 0x02030405, 0x35310600, 0]).result =
      some (.err .bufferOverflow) ∧
    (Sxb.tryFromUmpLazy 9 8 [0x35160001, 0x02030405, 0x35310600]).result = some .panic := by
  decide +kernel

end Midi2
