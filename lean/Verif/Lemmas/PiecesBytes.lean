import Verif.Spec.PiecesBytes
import Verif.Props.StreamsBytes

/-! # Lemmas: bytes that arrive in pieces -/

namespace Midi2

theorem BytesKind.Alone.is {m : BytesKind × List (BitVec 8)} (A : BytesKind.Alone m) :
    IsBytesMessage m.1 m.2 := by
  obtain ⟨k, b⟩ := m
  obtain ⟨h1, h2⟩ := A
  obtain ⟨lo, hi, he⟩ := C11_bytes_variant b b k h1
  exact ⟨⟨lo, hi, he⟩, ((C11_bytes_dispatch he b b).1.mp h1).1, h2⟩

theorem BytesKind.Alone.pos {m : BytesKind × List (BitVec 8)} (A : BytesKind.Alone m) :
    0 < m.2.length :=
  List.length_pos_iff.mpr (A.is.follow []).2.2

/-- What is accepted begins with a message. -/
theorem bytes_front {b : List (BitVec 8)} {x : BytesKind × List (BitVec 8)}
    (h : BytesMessage.tryFrom b = .ok x) :
    ∃ d, BytesMessage.data x = .ok d ∧ BytesKind.Alone (x.1, d) ∧ d <+: b := by
  obtain ⟨k, b'⟩ := x
  obtain ⟨lo, hi, he⟩ := C11_bytes_variant b b' k h
  obtain ⟨hk, rfl⟩ := (C11_bytes_dispatch he b b').1.mp h
  have hd : ∃ d, k.data b' = .ok d ∧ d <+: b' := by
    cases k with
    | fixed y => exact ⟨_, data_ok ((tryFrom_iff y .bytes b').mp hk).1, List.take_prefix _ _⟩
    | sysex7 =>
      obtain ⟨p, rest, rfl, hp⟩ := accepted_raw hk
      exact ⟨_, Sxb.data_raw hp, rest, by simp [Sxb.raw]⟩
  obtain ⟨d, hd, hp⟩ := hd
  exact ⟨d, hd, C53_bytes_message b' b' d k h hd, hp⟩

/-- Where no message stands, the reader waits. -/
theorem bytes_stop {b : List (BitVec 8)} (h : ∀ m, BytesKind.Alone m → ¬ m.2 <+: b) :
    ∀ n, takeBytes n b = .ok ([], b)
  | 0 => rfl
  | n + 1 => by
    rcases (C05_bytes_enums_total b).1 with ⟨k, hk⟩ | ⟨e, he⟩
    · obtain ⟨d, -, A, hp⟩ := bytes_front hk
      exact absurd hp (h _ A)
    · unfold takeBytes
      rw [he]

/-- Every stream has its messages. -/
theorem bytesOf_exists : ∀ (n : Nat) (b : List (BitVec 8)), b.length ≤ n →
    ∃ ms rest, BytesOf b ms rest
  | n, b, hn => by
    by_cases h : ∃ m, BytesKind.Alone m ∧ m.2 <+: b
    · obtain ⟨m, A, c, rfl⟩ := h
      have := A.pos
      rw [List.length_append] at hn
      match n, hn with
      | 0, hn => omega
      | n + 1, hn =>
        obtain ⟨ms, rest, R⟩ := bytesOf_exists n c (by omega)
        refine ⟨m :: ms, rest, ?_, fun q hq => ?_, R.stop⟩
        · rw [List.map_cons, List.flatten_cons, List.append_assoc, ← R.bytes]
        · rcases List.mem_cons.mp hq with rfl | hq
          · exact A
          · exact R.alone q hq
    · exact ⟨[], b, rfl, (fun q hq => nomatch hq), fun p W hp => h ⟨p, W, hp⟩⟩

/-- The loop follows the messages. -/
theorem takeBytes_of : ∀ {ms : List (BytesKind × List (BitVec 8))} {b rest : List (BitVec 8)},
    BytesOf b ms rest → ∀ n, b.length ≤ n → takeBytes n b = .ok (ms, rest)
  | [], b, rest, R, n, _ => by
    have e : b = rest := R.bytes
    subst e
    exact bytes_stop R.stop n
  | m :: ms, b, rest, R, n, hn => by
    have A := R.alone m List.mem_cons_self
    have hpos := A.pos
    obtain ⟨f1, f2, -⟩ := A.is.follow ((ms.map Prod.snd).flatten ++ rest)
    have e : b = m.2 ++ ((ms.map Prod.snd).flatten ++ rest) := by
      rw [R.bytes, List.map_cons, List.flatten_cons, List.append_assoc]
    subst e
    rw [List.length_append] at hn
    obtain ⟨n, rfl⟩ : ∃ x, n = x + 1 := ⟨n - 1, by omega⟩
    have ih := takeBytes_of (ms := ms) (b := (ms.map Prod.snd).flatten ++ rest) (rest := rest)
      ⟨rfl, fun q hq => R.alone q (List.mem_cons_of_mem _ hq), R.stop⟩ n (by omega)
    unfold takeBytes
    rw [f1]
    show (BytesKind.data _ _ >>= fun d => _) = _
    rw [f2, Res.ok_bind, List.drop_left, ih]
    rfl

theorem BytesOf.unique {b : List (BitVec 8)} {ms ms' : List (BytesKind × List (BitVec 8))}
    {r r' : List (BitVec 8)} (R : BytesOf b ms r) (R' : BytesOf b ms' r') : ms = ms' ∧ r = r' := by
  have h := takeBytes_of R _ (Nat.le_refl _)
  rw [takeBytes_of R' _ (Nat.le_refl _)] at h
  cases h
  exact ⟨rfl, rfl⟩

theorem BytesOf.trans {b c : List (BitVec 8)} {ms ns : List (BytesKind × List (BitVec 8))}
    {r s : List (BitVec 8)} (R : BytesOf b ms r) (S : BytesOf (r ++ c) ns s) :
    BytesOf (b ++ c) (ms ++ ns) s := by
  refine ⟨?_, fun p hp => ?_, S.stop⟩
  · rw [R.bytes, List.append_assoc, S.bytes, List.map_append, List.flatten_append,
      List.append_assoc]
  · rcases List.mem_append.mp hp with h | h
    · exact R.alone p h
    · exact S.alone p h

theorem BytesOf.nil : BytesOf [] [] [] :=
  ⟨rfl, (fun q hq => nomatch hq), fun p A hp => by
    have := A.pos
    have := hp.length_le
    rw [List.length_nil] at this
    omega⟩

theorem readBytePieces_of : ∀ (ps : List (List (BitVec 8))) {b : List (BitVec 8)}
    {ms : List (BytesKind × List (BitVec 8))} {r : List (BitVec 8)}, BytesOf b ms r →
    ∃ outs rest, readBytePieces ps r = .ok (outs, rest) ∧ outs.length = ps.length ∧
      BytesOf (b ++ ps.flatten) (ms ++ outs.flatten) rest ∧
      ∀ pre post, ps = pre ++ post →
        ∃ s, BytesOf (b ++ pre.flatten) (ms ++ (outs.take pre.length).flatten) s
  | [], b, ms, r, R => by
    refine ⟨[], r, rfl, rfl, by simpa using R, fun pre post h => ⟨r, ?_⟩⟩
    obtain ⟨rfl, -⟩ := List.nil_eq_append_iff.mp h
    simpa using R
  | p :: ps, b, ms, r, R => by
    obtain ⟨xs, s, S⟩ := bytesOf_exists _ (r ++ p) (Nat.le_refl _)
    obtain ⟨outs, rest, h1, h2, h3, h4⟩ := readBytePieces_of ps (R.trans S)
    refine ⟨xs :: outs, rest, ?_, by rw [List.length_cons, List.length_cons, h2], ?_, ?_⟩
    · show takeBytes (r ++ p).length (r ++ p) >>= _ = _
      rw [takeBytes_of S _ (Nat.le_refl _), Res.ok_bind, h1]; rfl
    · rw [List.flatten_cons, List.flatten_cons, ← List.append_assoc, ← List.append_assoc]
      exact h3
    · intro pre post h
      cases pre with
      | nil => exact ⟨r, by simpa using R⟩
      | cons q pre =>
        obtain ⟨rfl, h'⟩ := List.cons.inj h
        obtain ⟨t, T⟩ := h4 pre post h'
        refine ⟨t, ?_⟩
        rw [List.length_cons, List.take_succ_cons, List.flatten_cons, List.flatten_cons,
          ← List.append_assoc, ← List.append_assoc]
        exact T

end Midi2
