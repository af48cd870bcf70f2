import Verif.Spec.Discovery
import Verif.Lemmas.Recorder

/-!
# Lemmas for endpoint discovery
-/

namespace Midi2.Discovery

open Rx

theorem holding_nth {d : MsgDesc} {calls : List SetCall} {x : Buf .ump} (h : Holding .ump d calls x)
    (hn : (calls.map SetCall.name).Nodup) (i : Nat) (hi : i < calls.length) :
    calls[i].fld.read .ump x = .ok calls[i].val := by
  refine h.1 (calls.take i) calls[i].name calls[i].fld calls[i].val (calls.drop (i + 1)) ?_ ?_
  · show calls = calls.take i ++ calls[i] :: calls.drop (i + 1)
    rw [← List.drop_eq_getElem_cons hi, List.take_append_drop]
  · intro c hc e
    rw [← List.take_append_drop i calls, List.drop_eq_getElem_cons hi, List.map_append,
      List.map_cons] at hn
    have := (List.nodup_append.mp hn).2.1
    exact (List.nodup_cons.mp this).1 (e ▸ List.mem_map_of_mem hc)

theorem make_ok {d : MsgDesc} (hd : d ∈ Msg.all)
    (hn : d.name ≠ "ump_stream::FunctionBlockDiscovery") (calls : List SetCall)
    (hc : ∀ c ∈ calls, c.legal d .ump) :
    ∃ x, make d calls = .ok (.fixed d, x) ∧ Whole (.fixed d, x) ∧ Holding .ump d calls x := by
  obtain ⟨b, x, h1, h2, h3, h4, h5⟩ := built_fixed hd hn calls hc
  refine ⟨x, ?_, ⟨h4, h1⟩, h5⟩
  unfold make
  cases hv : d.newVec .ump with
  | ok a =>
    rw [hv, Res.ok_bind] at h2
    rw [Res.ok_bind, h2, Res.ok_bind, h3]; rfl
  | err e => rw [hv] at h2; cases h2
  | panic => rw [hv] at h2; cases h2

theorem makeText_ok {t : StreamText} (ht : t ∈ StreamText.all) (hb : t ≠ .functionBlockName)
    {s : String} (hs : NulFree s) :
    ∃ x, makeText t s = .ok (.streamText t, x) ∧ Whole (.streamText t, x) ∧ t.text x = .ok s := by
  obtain ⟨b, x, h1, h2, h3, h4, -, h6⟩ := built_stream_text t ht [.setText s]
    (.inr fun o ho => ⟨s, by simpa using ho⟩) hs fun h => absurd h hb
  refine ⟨x, ?_, ⟨h4, h1⟩, h6⟩
  unfold makeText
  cases hv : t.newVec with
  | ok a =>
    rw [hv, Res.ok_bind] at h2
    have h2 : (t.setText a s >>= fun b => .ok b) = .ok b := h2
    rw [Res.ok_bind]
    cases hw : t.setText a s with
    | ok b' => rw [hw] at h2; cases h2; rw [Res.ok_bind, h3]; rfl
    | err e => rw [hw] at h2; cases h2
    | panic => rw [hw] at h2; cases h2
  | err e => rw [hv] at h2; cases h2
  | panic => rw [hv] at h2; cases h2

theorem ask_ok (r : Request) :
    ∃ x, ask r = .ok (.fixed Msg.streamEndpointDiscovery, x) ∧
      Whole (.fixed Msg.streamEndpointDiscovery, x) ∧
      (Fld.schema .bool ⟨0, 0x00000001, 0, 0⟩).read .ump x = .ok r.info ∧
      (Fld.schema .bool ⟨0, 0x00000002, 0, 0⟩).read .ump x = .ok r.identity ∧
      (Fld.schema .bool ⟨0, 0x00000004, 0, 0⟩).read .ump x = .ok r.name ∧
      (Fld.schema .bool ⟨0, 0x00000008, 0, 0⟩).read .ump x = .ok r.id ∧
      (Fld.schema .bool ⟨0, 0x00000010, 0, 0⟩).read .ump x = .ok r.config := by
  obtain ⟨x, h1, h2, h3⟩ := make_ok (d := Msg.streamEndpointDiscovery)
    (by simp [Msg.all, Msg.streamAll]) (by decide) r.calls
    (by
      intro c hc
      simp only [Request.calls, List.mem_cons, List.not_mem_nil, or_false] at hc
      rcases hc with rfl | rfl | rfl | rfl | rfl | rfl | rfl <;>
        exact ⟨by simp [Msg.streamEndpointDiscovery], rfl, rfl⟩)
  have hn : (r.calls.map SetCall.name).Nodup := by simp [Request.calls]
  have n := fun i hi => holding_nth h3 hn i hi
  exact ⟨x, h1, h2, n 2 (by simp [Request.calls]), n 3 (by simp [Request.calls]),
    n 4 (by simp [Request.calls]), n 5 (by simp [Request.calls]), n 6 (by simp [Request.calls])⟩

theorem info_ok (i : Info) :
    ∃ x, make Msg.streamEndpointInfo i.calls = .ok (.fixed Msg.streamEndpointInfo, x) ∧
      Whole (.fixed Msg.streamEndpointInfo, x) ∧ readInfo x = .ok i := by
  obtain ⟨x, h1, h2, h3⟩ := make_ok (d := Msg.streamEndpointInfo)
    (by simp [Msg.all, Msg.streamAll]) (by decide) i.calls
    (by
      intro c hc
      simp only [Info.calls, List.mem_cons, List.not_mem_nil, or_false] at hc
      rcases hc with rfl | rfl | rfl | rfl | rfl | rfl | rfl | rfl <;>
        exact ⟨by simp [Msg.streamEndpointInfo], rfl, rfl⟩)
  have hn : (i.calls.map SetCall.name).Nodup := by simp [Info.calls]
  have n := fun j hj => holding_nth h3 hn j hj
  refine ⟨x, h1, h2, ?_⟩
  have l : i.calls.length = 8 := rfl
  have n0 : (Fld.schema .u8 ⟨0x0000FF00, 0, 0, 0⟩).read .ump x = .ok i.major := n 0 (by omega)
  have n1 : (Fld.schema .u8 ⟨0x000000FF, 0, 0, 0⟩).read .ump x = .ok i.minor := n 1 (by omega)
  have n2 : (Fld.schema .bool ⟨0, 0x80000000, 0, 0⟩).read .ump x = .ok i.staticBlocks := n 2 (by omega)
  have n3 : (Fld.schema .bool ⟨0, 0x00000200, 0, 0⟩).read .ump x = .ok i.midi2 := n 3 (by omega)
  have n4 : (Fld.schema .bool ⟨0, 0x00000100, 0, 0⟩).read .ump x = .ok i.midi1 := n 4 (by omega)
  have n5 : (Fld.schema .bool ⟨0, 0x00000002, 0, 0⟩).read .ump x = .ok i.receivesJr := n 5 (by omega)
  have n6 : (Fld.schema .bool ⟨0, 0x00000001, 0, 0⟩).read .ump x = .ok i.sendsJr := n 6 (by omega)
  have n7 : (Fld.schema .u7 ⟨0, 0x7F000000, 0, 0⟩).read .ump x = .ok i.blocks := n 7 (by omega)
  unfold readInfo
  rw [n0, Res.ok_bind, n1, Res.ok_bind, n2, Res.ok_bind, n3, Res.ok_bind, n4, Res.ok_bind, n5,
    Res.ok_bind, n6, Res.ok_bind, n7]
  rfl

theorem identity_ok (i : Identity) :
    ∃ x, make Msg.streamDeviceIdentity i.calls = .ok (.fixed Msg.streamDeviceIdentity, x) ∧
      Whole (.fixed Msg.streamDeviceIdentity, x) ∧ readIdentity x = .ok i := by
  obtain ⟨x, h1, h2, h3⟩ := make_ok (d := Msg.streamDeviceIdentity)
    (by simp [Msg.all, Msg.streamAll]) (by decide) i.calls
    (by
      intro c hc
      simp only [Identity.calls, List.mem_cons, List.not_mem_nil, or_false] at hc
      rcases hc with rfl | rfl | rfl | rfl <;>
        exact ⟨by simp [Msg.streamDeviceIdentity], rfl, rfl⟩)
  have hn : (i.calls.map SetCall.name).Nodup := by simp [Identity.calls]
  have n := fun j hj => holding_nth h3 hn j hj
  refine ⟨x, h1, h2, ?_⟩
  have l : i.calls.length = 4 := rfl
  have n0 : (Fld.schema .u7x3 ⟨0, 0x007F7F7F, 0, 0⟩).read .ump x = .ok i.manufacturer := n 0 (by omega)
  have n1 : (Fld.schema .u14 ⟨0, 0, 0x7F7F0000, 0⟩).read .ump x = .ok i.family := n 1 (by omega)
  have n2 : (Fld.schema .u14 ⟨0, 0, 0x00007F7F, 0⟩).read .ump x = .ok i.model := n 2 (by omega)
  have n3 : (Fld.schema .u7x4 ⟨0, 0, 0, 0x7F7F7F7F⟩).read .ump x = .ok i.software := n 3 (by omega)
  unfold readIdentity
  rw [n0, Res.ok_bind, n1, Res.ok_bind, n2, Res.ok_bind, n3]
  rfl

theorem config_ok (c : Config) :
    ∃ x, make Msg.streamStreamConfigurationNotification c.calls =
        .ok (.fixed Msg.streamStreamConfigurationNotification, x) ∧
      Whole (.fixed Msg.streamStreamConfigurationNotification, x) ∧ readConfig x = .ok c := by
  obtain ⟨x, h1, h2, h3⟩ := make_ok (d := Msg.streamStreamConfigurationNotification)
    (by simp [Msg.all, Msg.streamAll]) (by decide) c.calls
    (by
      intro c hc
      simp only [Config.calls, List.mem_cons, List.not_mem_nil, or_false] at hc
      rcases hc with rfl | rfl | rfl <;>
        exact ⟨by simp [Msg.streamStreamConfigurationNotification], rfl, rfl⟩)
  have hn : (c.calls.map SetCall.name).Nodup := by simp [Config.calls]
  have n := fun j hj => holding_nth h3 hn j hj
  refine ⟨x, h1, h2, ?_⟩
  have l : c.calls.length = 3 := rfl
  have n0 : (Fld.schema .u8 ⟨0x0000FF00, 0, 0, 0⟩).read .ump x = .ok c.protocol := n 0 (by omega)
  have n1 : (Fld.schema .bool ⟨0x00000002, 0, 0, 0⟩).read .ump x = .ok c.receiveJr := n 1 (by omega)
  have n2 : (Fld.schema .bool ⟨0x00000001, 0, 0, 0⟩).read .ump x = .ok c.sendJr := n 2 (by omega)
  unfold readConfig
  rw [n0, Res.ok_bind, n1, Res.ok_bind, n2]
  rfl

/-- A reply, and what reading it does. -/
def Reply (dev : Device) (r : Request) (as : List (UmpKind × Buf .ump)) : Prop :=
  (∀ m ∈ as, Whole m ∧ inPackets m = m) ∧ ∀ ms, learnAll ⟨none, none, none, none, none⟩ (as ++ ms) =
    learnAll (dev.told r) ms

theorem learn_info {x : Buf .ump} {i : Info} (h : readInfo x = .ok i) (k : Told)
    (ms : List (UmpKind × Buf .ump)) :
    learnAll k ((.fixed Msg.streamEndpointInfo, x) :: ms) = learnAll { k with info := some i } ms := by
  rw [learnAll, learn, if_pos rfl, h]; rfl

theorem learn_identity {x : Buf .ump} {i : Identity} (h : readIdentity x = .ok i) (k : Told)
    (ms : List (UmpKind × Buf .ump)) :
    learnAll k ((.fixed Msg.streamDeviceIdentity, x) :: ms) =
      learnAll { k with identity := some i } ms := by
  rw [learnAll, learn, if_neg (by dsimp only; decide), if_pos rfl, h]; rfl

theorem learn_name {x : Buf .ump} {s : String} (h : StreamText.endpointName.text x = .ok s) (k : Told)
    (ms : List (UmpKind × Buf .ump)) :
    learnAll k ((.streamText .endpointName, x) :: ms) = learnAll { k with name := some s } ms := by
  rw [learnAll, learn, if_neg (by dsimp only; decide), if_neg (by dsimp only; decide), if_pos rfl, h]; rfl

theorem learn_id {x : Buf .ump} {s : String} (h : StreamText.productInstanceId.text x = .ok s)
    (k : Told) (ms : List (UmpKind × Buf .ump)) :
    learnAll k ((.streamText .productInstanceId, x) :: ms) = learnAll { k with id := some s } ms := by
  rw [learnAll, learn, if_neg (by dsimp only; decide), if_neg (by dsimp only; decide),
    if_neg (by dsimp only; decide), if_pos rfl, h]; rfl

theorem learn_config {x : Buf .ump} {c : Config} (h : readConfig x = .ok c) (k : Told)
    (ms : List (UmpKind × Buf .ump)) :
    learnAll k ((.fixed Msg.streamStreamConfigurationNotification, x) :: ms) =
      learnAll { k with config := some c } ms := by
  rw [learnAll, learn, if_neg (by dsimp only; decide), if_neg (by dsimp only; decide),
    if_neg (by dsimp only; decide), if_neg (by dsimp only; decide), if_pos rfl, h]; rfl

theorem ifAsked_ok {asked : Bool} {reply : Res (UmpKind × List (BitVec 32))}
    {m : UmpKind × List (BitVec 32)} (h : reply = .ok m) :
    ifAsked asked reply = .ok (if asked then [m] else []) := by
  unfold ifAsked; cases asked
  · rfl
  · rw [h]; rfl

theorem answer_ok (dev : Device) (r : Request) (hn : NulFree dev.name) (hi : NulFree dev.id)
    {x : Buf .ump} (hx : ask r = .ok (.fixed Msg.streamEndpointDiscovery, x)) :
    ∃ as, answer dev (.fixed Msg.streamEndpointDiscovery, x) = .ok as ∧ Reply dev r as := by
  obtain ⟨x', h1, -, f1, f2, f3, f4, f5⟩ := ask_ok r
  cases Res.ok.inj (hx.symm.trans h1)
  obtain ⟨x1, a1, w1, l1⟩ := info_ok dev.info
  obtain ⟨x2, a2, w2, l2⟩ := identity_ok dev.identity
  obtain ⟨x3, a3, w3, l3⟩ := makeText_ok (t := .endpointName) (by decide) (by decide) hn
  obtain ⟨x4, a4, w4, l4⟩ := makeText_ok (t := .productInstanceId) (by decide) (by decide) hi
  obtain ⟨x5, a5, w5, l5⟩ := config_ok dev.config
  refine ⟨(if r.info then [(.fixed Msg.streamEndpointInfo, x1)] else []) ++
    (if r.identity then [(.fixed Msg.streamDeviceIdentity, x2)] else []) ++
    (if r.name then [(.streamText .endpointName, x3)] else []) ++
    (if r.id then [(.streamText .productInstanceId, x4)] else []) ++
    (if r.config then [(.fixed Msg.streamStreamConfigurationNotification, x5)] else []), ?_, ?_, ?_⟩
  · unfold answer
    rw [if_pos rfl]
    rw [show (Fld.schema .bool ⟨0, 0x00000001, 0, 0⟩).read .ump x = .ok r.info from f1, Res.ok_bind,
      show (Fld.schema .bool ⟨0, 0x00000002, 0, 0⟩).read .ump x = .ok r.identity from f2, Res.ok_bind,
      show (Fld.schema .bool ⟨0, 0x00000004, 0, 0⟩).read .ump x = .ok r.name from f3, Res.ok_bind,
      show (Fld.schema .bool ⟨0, 0x00000008, 0, 0⟩).read .ump x = .ok r.id from f4, Res.ok_bind,
      show (Fld.schema .bool ⟨0, 0x00000010, 0, 0⟩).read .ump x = .ok r.config from f5, Res.ok_bind,
      ifAsked_ok a1, Res.ok_bind, ifAsked_ok a2, Res.ok_bind, ifAsked_ok a3, Res.ok_bind,
      ifAsked_ok a4, Res.ok_bind, ifAsked_ok a5, Res.ok_bind]
    rfl
  · intro m hm
    have one : ∀ {a : Bool} {y : UmpKind × Buf .ump}, Whole y → inPackets y = y →
        m ∈ (if a then [y] else []) → Whole m ∧ inPackets m = m := by
      intro a y h1 h2 h
      cases a
      · cases h
      · rcases List.mem_cons.mp h with rfl | h
        · exact ⟨h1, h2⟩
        · cases h
    have e : ∀ {k : UmpKind} {x : Buf .ump}, k ≠ .fixed Msg.streamFunctionBlockDiscovery →
        inPackets (k, x) = (k, x) := fun h => if_neg h
    rcases List.mem_append.mp hm with hm | hm
    · rcases List.mem_append.mp hm with hm | hm
      · rcases List.mem_append.mp hm with hm | hm
        · rcases List.mem_append.mp hm with hm | hm
          · exact one w1 (e (by decide)) hm
          · exact one w2 (e (by decide)) hm
        · exact one w3 (e (by decide)) hm
      · exact one w4 (e (by decide)) hm
    · exact one w5 (e (by decide)) hm
  · intro ms
    obtain ⟨rmaj, rmin, ri, rid, rn, rp, rc⟩ := r
    cases ri <;> cases rid <;> cases rn <;> cases rp <;> cases rc <;>
      simp only [if_true, if_false, Bool.false_eq_true, List.nil_append, List.cons_append, List.append_nil,
        learn_info l1, learn_identity l2, learn_name l3, learn_id l4, learn_config l5, Device.told]

theorem answers_append {dev : Device} : ∀ {a b r s : List (UmpKind × Buf .ump)},
    answers dev a = .ok r → answers dev b = .ok s → answers dev (a ++ b) = .ok (r ++ s)
  | [], b, r, s, h1, h2 => by cases h1; exact h2
  | m :: a, b, r, s, h1, h2 => by
    rw [answers] at h1
    cases hm : answer dev m with
    | ok x =>
      rw [hm, Res.ok_bind] at h1
      cases ha : answers dev a with
      | ok y =>
        rw [ha] at h1
        cases h1
        rw [List.cons_append, answers, hm, Res.ok_bind, answers_append ha h2, List.append_assoc]
        rfl
      | err e => rw [ha] at h1; cases h1
      | panic => rw [ha] at h1; cases h1
    | err e => rw [hm] at h1; cases h1
    | panic => rw [hm] at h1; cases h1

theorem answers_other {dev : Device} : ∀ {a : List (UmpKind × Buf .ump)},
    (∀ m ∈ a, m.1 ≠ .fixed Msg.streamEndpointDiscovery) → answers dev a = .ok []
  | [], _ => rfl
  | m :: a, h => by
    rw [answers, answer, if_neg (h m List.mem_cons_self), Res.ok_bind,
      answers_other fun m hm => h m (List.mem_cons_of_mem _ hm)]
    rfl

theorem learn_other {k : Told} : ∀ {a b : List (UmpKind × Buf .ump)},
    (∀ m ∈ a, m.1 ∉ notifications) → learnAll k (a ++ b) = learnAll k b
  | [], _, _ => rfl
  | m :: a, b, h => by
    have hm := h m List.mem_cons_self
    simp only [notifications, List.mem_cons, List.not_mem_nil, or_false, not_or] at hm
    obtain ⟨h1, h2, h3, h4, h5⟩ := hm
    rw [List.cons_append, learnAll, learn, if_neg h1, if_neg h2, if_neg h3, if_neg h4, if_neg h5,
      Res.ok_bind, learn_other fun m hm => h m (List.mem_cons_of_mem _ hm)]

end Midi2.Discovery
