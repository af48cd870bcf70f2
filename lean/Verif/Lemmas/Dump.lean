import Verif.Spec.Dump
import Verif.Lemmas.Link
import Verif.Props.EndToEnd
import Verif.Props.SysexBytes

/-! # Lemmas for large data in small arrays -/

namespace Midi2.Dump

open Sx

theorem room_iff (k : Sx) {n : Nat} (hn : k.layout.words ≤ n) (m : Nat) :
    k.layout.wireLength m ≤ 4 * n ↔ m ≤ k.layout.room n := by
  rw [words_eq] at hn
  unfold SysexLayout.room
  rw [wireLength_eq, words_eq, capacity_eq, Nat.mul_comm _ k.cap,
    ← k.count_le_iff m _ (Nat.div_pos hn (by cases k <;> decide))]
  have : k.count m ≤ n / k.stride ↔ k.count m * k.stride ≤ n :=
    Nat.le_div_iff_mul_le (by cases k <;> decide)
  rw [this, Nat.mul_comm k.stride]
  omega

/-- What is sent of a message in an array. -/
theorem sent {k : Sx} {dbg : Bool} {g : BitVec 4} {n : Nat} {b : Buf .ump} {l : List k.Byte}
    (S : Strict k dbg (ZeroId k) g (some n) b l) :
    ∃ x, k.data b = .ok x ∧ Rx.Whole (.sysex k, x) ∧ Sx.group x = .ok g ∧ k.payloadList x = .ok l := by
  have P := S.packed
  obtain ⟨x, h1, h2⟩ := S.accepted
  have e := P.data_eq
  rw [h1] at e
  cases e
  have he : ∃ h, (UmpKind.sysex k, h) ∈ umpTable := by
    cases k
    · exact ⟨⟨3, 8, 0, 0⟩, by decide +kernel⟩
    · exact ⟨⟨5, 8, 0, 0⟩, by decide +kernel⟩
  obtain ⟨h, he⟩ := he
  refine ⟨_, h1, ⟨(C10_ump_dispatch_partial he (sysex_not_misfiled k) _ (fun e => nomatch e)).mpr h2, ?_⟩,
    P.take.group_ok, P.take.payloadList_ok⟩
  show k.data _ = _
  rw [P.take.data_eq, List.take_take, Nat.min_self]

theorem transmit_ok {k : Sx} {dbg : Bool} {n : Nat} (hn : k.stride ≤ n) :
    ∀ (rs : List (List (SxTryCall k))) {b : Buf .ump} {s : BitVec 4 × List k.Byte},
      Strict k dbg (ZeroId k) s.1 (some n) b s.2 → InRange n rs s →
      ∃ ms, transmit k dbg rs b = .ok (ms, (shown n rs s).map Prod.snd) ∧ (∀ m ∈ ms, Rx.Whole m) ∧
        (∀ m ∈ ms, m.1 = .sysex k) ∧
        ms.map (fun m => (Sx.group m.2, k.payloadList m.2)) =
          (shown n rs s).map fun x => (.ok x.1.1, .ok x.1.2)
  | [], b, s, _, _ => ⟨[], rfl, fun _ h => (nomatch h), fun _ h => (nomatch h), rfl⟩
  | cs :: rs, b, s, S, hr => by
    obtain ⟨b', e', S'⟩ := try_history (inv_zeroId k) (fun b g h => zeroId_setGroup g h) hn cs b s hr.1 S
    obtain ⟨x, h1, h2, h3, h4⟩ := sent S'
    obtain ⟨ms, t1, t2, t3, t4⟩ := transmit_ok hn rs S' hr.2
    refine ⟨(.sysex k, x) :: ms, ?_, ?_, ?_, ?_⟩
    · rw [transmit, e', Res.ok_bind]
      simp only
      rw [h1, Res.ok_bind, t1]
      rfl
    · intro m hm
      rcases List.mem_cons.mp hm with rfl | hm
      · exact h2
      · exact t2 m hm
    · intro m hm
      rcases List.mem_cons.mp hm with rfl | hm
      · rfl
      · exact t3 m hm
    · rw [List.map_cons, t4]
      simp only [shown, List.map_cons, h3, h4]

theorem dumpBlocks_ok {k : Sx} {dbg : Bool} {n : Nat} (hn : k.layout.words ≤ n) {g : BitVec 4} :
    ∀ (ls : List (List k.Byte)) {b : Buf .ump} {l : List k.Byte},
      Strict k dbg (ZeroId k) g (some n) b l → (∀ l ∈ ls, l.length ≤ k.layout.room n) →
      ∃ ms, dumpBlocks k dbg ls b = .ok ms ∧ (∀ m ∈ ms, Rx.Whole m ∧ ours k g m = true) ∧
        gather k g ms = .ok ls.flatten ∧ ms.length = ls.length
  | [], b, l, _, _ => ⟨[], rfl, fun _ h => (nomatch h), rfl, rfl⟩
  | d :: ls, b, l, S, hl => by
    have hn' := hn
    rw [words_eq] at hn'
    obtain ⟨b', e', S'⟩ := try_exec_strict (inv_zeroId k) (fun b g h => zeroId_setGroup g h) hn' S
      (.setPayload ⟨d, d.length, some d.length⟩) trivial
    have ha : (SxTryCall.setPayload ⟨d, d.length, some d.length⟩ : SxTryCall k).apply n (g, l) =
        ((g, d), none) := by
      unfold SxTryCall.apply
      exact if_pos ((room_iff k hn _).mpr (hl d List.mem_cons_self))
    rw [ha] at e' S'
    have e' : (k.ops dbg .fixed).trySetPayload b ⟨d, d.length, some d.length⟩ = .ok (b', none) := e'
    obtain ⟨x, h1, h2, h3, h4⟩ := sent S'
    obtain ⟨ms, t1, t2, t3, t4⟩ := dumpBlocks_ok hn ls S' fun l h => hl l (List.mem_cons_of_mem _ h)
    have ho : ours k g (.sysex k, x) = true := by
      unfold ours
      simp [h3]
    refine ⟨(.sysex k, x) :: ms, ?_, ?_, ?_, ?_⟩
    · rw [dumpBlocks, e', Res.ok_bind]
      simp only
      rw [h1, Res.ok_bind, t1]
      rfl
    · intro m hm
      rcases List.mem_cons.mp hm with rfl | hm
      · exact ⟨h2, ho⟩
      · exact t2 m hm
    · rw [gather, if_pos ho, h4, Res.ok_bind, t3]
      rfl
    · rw [List.length_cons, List.length_cons, t4]

theorem flatten_blocksOf {α : Type} {c : Nat} (hc : c ≠ 0) : ∀ (l : List α), (blocksOf c l).flatten = l := by
  intro l
  induction hl : l.length using Nat.strongRecOn generalizing l with
  | _ n ih =>
    rw [blocksOf]
    split
    · next h =>
      rcases h with rfl | h
      · rfl
      · exact absurd h hc
    · next h =>
      have := List.length_pos_iff.mpr (fun e => h (.inl e))
      have h2 : c ≠ 0 := fun e => h (.inr e)
      rw [List.flatten_cons, ih (l.drop c).length (by rw [List.length_drop]; omega) _ rfl,
        List.take_append_drop]

theorem blocksOf_length {α : Type} {c : Nat} : ∀ (l : List α), ∀ x ∈ blocksOf c l, x.length ≤ c := by
  intro l
  induction hl : l.length using Nat.strongRecOn generalizing l with
  | _ n ih =>
    rw [blocksOf]
    split
    · intro x hx; cases hx
    · next h =>
      have := List.length_pos_iff.mpr (fun e => h (.inl e))
      have h2 : c ≠ 0 := fun e => h (.inr e)
      intro x hx
      rcases List.mem_cons.mp hx with rfl | hx
      · rw [List.length_take]; omega
      · exact ih (l.drop c).length (by rw [List.length_drop]; omega) _ rfl x hx

theorem blocksOf_length' {α : Type} {c : Nat} : ∀ (l : List α), ∀ x ∈ blocksOf c l, x.length ≤ l.length := by
  intro l
  induction hl : l.length using Nat.strongRecOn generalizing l with
  | _ n ih =>
    rw [blocksOf]
    split
    · intro x hx; cases hx
    · next h =>
      have := List.length_pos_iff.mpr (fun e => h (.inl e))
      have h2 : c ≠ 0 := fun e => h (.inr e)
      intro x hx
      rcases List.mem_cons.mp hx with rfl | hx
      · rw [List.length_take]; omega
      · have := ih (l.drop c).length (by rw [List.length_drop]; omega) _ rfl x hx
        rw [List.length_drop] at this
        omega

theorem length_blocksOf {α : Type} {c : Nat} (hc : c ≠ 0) :
    ∀ (l : List α), (blocksOf c l).length = (l.length + c - 1) / c := by
  intro l
  induction hl : l.length using Nat.strongRecOn generalizing l with
  | _ n ih =>
    rw [blocksOf]
    split
    · next h =>
      rcases h with rfl | h
      · cases hl
        rw [Nat.div_eq_of_lt (by show 0 + c - 1 < c; omega)]
        rfl
      · exact absurd h hc
    · next h =>
      have h1 := List.length_pos_iff.mpr (fun e => h (.inl e))
      have h3 : (l.drop c).length = l.length - c := List.length_drop
      rw [List.length_cons, ih (l.drop c).length (by rw [h3]; omega) _ rfl, h3, ← hl]
      by_cases hle : l.length ≤ c
      · rw [Nat.div_eq_of_lt (by omega), Nat.zero_add]
        have : l.length + c - 1 = (l.length - 1) + c := by omega
        rw [this, Nat.add_div_right _ (by omega), Nat.div_eq_of_lt (by omega)]
      · have : l.length + c - 1 = (l.length - c + c - 1) + c := by omega
        rw [this, Nat.add_div_right _ (by omega)]

theorem gather_filter (k : Sx) (g : BitVec 4) : ∀ ms : List (UmpKind × List (BitVec 32)),
    gather k g ms = gather k g (ms.filter (ours k g))
  | [] => rfl
  | m :: ms => by
    rw [gather, gather_filter k g ms]
    cases h : ours k g m with
    | true =>
      rw [List.filter_cons_of_pos h, gather, if_pos h, if_pos rfl]
    | false =>
      rw [List.filter_cons_of_neg (by rw [h]; decide), if_neg (by decide), Res.ok_bind]
      cases gather k g (ms.filter (ours k g)) <;> rfl

/-! ### Bytes -/

theorem dumpBlocksBytes_ok {n : Nat} : ∀ (ls : List (List (BitVec 7))) {b : Buf .bytes},
    Sxb.tryFrom b = .ok b → b.length = n → (∀ l ∈ ls, l.length + 2 ≤ n) →
    dumpBlocksBytes ls b = .ok (ls.map sysexBytes)
  | [], _, _, _, _ => rfl
  | l :: ls, b, h, hn, hl => by
    obtain ⟨b', rest, h1, h2 | h2⟩ :=
      C20_bytes_try_set_payload_partial b h ⟨l, l.length, some l.length⟩ rfl
    · obtain ⟨-, e, rfl⟩ := h2
      rw [dumpBlocksBytes, e, Res.ok_bind]
      simp only
      rw [(holdsBytes l rest).data, Res.ok_bind, dumpBlocksBytes_ok ls (sysexBytes_accepted l rest)
        (h1.trans hn) fun l h => hl l (List.mem_cons_of_mem _ h)]
      rfl
    · have := hl l List.mem_cons_self
      have h2 := h2.1
      simp only at h2
      omega

theorem gatherBytes_ok : ∀ {got : List (BytesKind × List (BitVec 8))} {ls : List (List (BitVec 7))},
    (∀ m ∈ got, BytesMessage.tryFrom m.2 = .ok m) →
    (got.map Prod.snd).filter (fun x => x.head? == some 0xF0) = ls.map sysexBytes →
    gatherBytes got = .ok ls.flatten
  | [], [], _, _ => rfl
  | [], _ :: _, _, h => nomatch h
  | m :: got, ls, hm, h => by
    have D := fun b b' => C11_bytes_dispatch (k := .sysex7) (lo := 0xF0) (hi := 0xF1)
      (by decide +kernel) b b'
    have h1 := hm m List.mem_cons_self
    have hm' := fun x hx => hm x (List.mem_cons_of_mem m hx)
    rw [List.map_cons, List.filter_cons] at h
    split at h
    · next hh =>
      cases ls with
      | nil => cases h
      | cons l ls =>
        obtain ⟨e1, e2⟩ := List.cons.inj h
        have hk : m.1 = .sysex7 := by
          have := (D m.2 m.2).1.mpr ⟨by
            have := sysexBytes_accepted l []
            rw [List.append_nil, ← e1] at this
            exact this, rfl⟩
          rw [h1] at this
          exact congrArg Prod.fst (Res.ok.inj this)
        have hp : Sxb.payloadList m.2 = .ok l := by
          have := (holdsBytes l []).payload
          rwa [List.append_nil, ← e1] at this
        rw [gatherBytes, if_pos hk, hp, Res.ok_bind, gatherBytes_ok hm' e2]
        rfl
    · next hh =>
      have hk : m.1 ≠ .sysex7 := by
        intro hk
        obtain ⟨k, x⟩ := m
        cases hk
        obtain ⟨y, rest, e, h2, h3⟩ := (D x x).2 ((D x x).1.mp h1).1
        apply hh
        have : y = 0xF0 := BitVec.eq_of_toNat_eq (by
          have : (0xF0 : BitVec 8).toNat = 0xF0 := rfl
          omega)
        subst this
        subst e
        rfl
      rw [gatherBytes, if_neg hk, Res.ok_bind, gatherBytes_ok hm' h]
      rfl

end Midi2.Dump
