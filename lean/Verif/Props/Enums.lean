import Verif.Spec.Enums
import Verif.Props.Streams
import Verif.Props.Setters
import Verif.Props.Layout
import Verif.Props.Convert

/-!
# C52, C13, C14: the enums
-/

namespace Midi2

/-! ## C52: group and channel -/

theorem changedOnly_of_lsb {n : Nat} {b b' : List (BitVec n)} {m : Nat → BitVec n}
    {bit : Nat → Nat → Prop} (hl : b'.length = b.length)
    (h : ∀ i (h : i < b.length) (h' : i < b'.length) (k : Nat),
      b'[i].getLsbD k ≠ b[i].getLsbD k → (m i).getLsbD k = true)
    (hm : ∀ i p, p < n → (m i).getMsbD p = true → bit i p) : ChangedOnly b b' bit := by
  refine ⟨hl, fun i p hb => ?_⟩
  by_cases hi : i < b.length
  · have hi' : i < b'.length := by omega
    rw [List.getElem?_eq_getElem hi, List.getElem?_eq_getElem hi']
    simp only [Option.map_some, Option.some.injEq]
    by_cases hp : p < n
    · refine Classical.byContradiction fun hne => hb (hm i p hp ?_)
      have := h i hi hi' (n - 1 - p) (by
        rw [BitVec.getMsbD_eq_getLsbD, BitVec.getMsbD_eq_getLsbD] at hne
        simpa [hp] using hne)
      rw [BitVec.getMsbD_eq_getLsbD]
      simp [hp, this]
    · rw [BitVec.getMsbD_of_ge _ _ (by omega), BitVec.getMsbD_of_ge _ _ (by omega)]
  · rw [List.getElem?_eq_none (by omega), List.getElem?_eq_none (by omega)]

/-- One setter call on an accepted UMP message. -/
theorem set_accepted {d : MsgDesc} (hd : d ∈ Msg.all) {n : String} {f : Fld} (hf : (n, f) ∈ d.props)
    (ha : f.accessible .ump = true) (b : Buf .ump) (hok : d.tryFrom .ump b = .ok b) (v : f.Ty)
    (hv : f.faithful v = true) {bit : Nat → Nat → Prop}
    (hm : ∀ i p, p < 32 → (f.umpBits.at i).getMsbD p = true → bit i p) :
    ∃ b', f.write .ump b v = .ok b' ∧ d.tryFrom .ump b' = .ok b' ∧ f.read .ump b' = .ok v ∧
      ChangedOnly b b' bit := by
  have hb := ((tryFrom_iff d .ump b).mp hok).1
  obtain ⟨b', h1, h2, h3, h4, _⟩ := C09_ump_history hd b hok [⟨n, f, v⟩] (by
    intro c hc
    rw [List.mem_singleton] at hc
    subst hc
    exact ⟨hf, ha, hv⟩)
  have hw : f.write .ump b v = .ok b' := by
    simp only [runSetters] at h1
    cases e : f.write .ump b v with
    | ok x => rw [e] at h1; exact h1
    | err e' => rw [e] at h1; cases h1
    | panic => rw [e] at h1; cases h1
  have hfp := C04_ump_footprint hd hf ha b b' hb v hw
  exact ⟨b', hw, h3, h4 [] n f v [] rfl (by simp), changedOnly_of_lsb h2
    (fun i h h' k hk => (hfp.2 i h h' k hk).1) hm⟩

theorem fixedEnum_read {m : Fmt} {n : String} {f : Fld} {d : MsgDesc} (hf : (n, f) ∈ d.props)
    (b : Buf m) : FixedEnum.read m n f (d, b) = f.read m b := if_pos hf

theorem fixedEnum_write {m : Fmt} {n : String} {f : Fld} {d : MsgDesc} (hf : (n, f) ∈ d.props)
    (b b' : Buf m) (v : f.Ty) (h : f.write m b v = .ok b') :
    FixedEnum.write m n f v (d, b) = .ok (d, b') := by
  unfold FixedEnum.write
  rw [if_pos hf, h]; rfl

theorem grouped_props : ∀ d ∈ Msg.sysAll ++ Msg.cv1All ++ Msg.cv2All,
    ("group", groupFld) ∈ d.props ∧ d ∈ Msg.all ∧ 1 ≤ d.umpSize := by decide +kernel

theorem grouped_parser {parse : Buf .ump → Res (MsgDesc × Buf .ump)} (hp : parse ∈ groupedParsers) :
    ∃ all : List MsgDesc, (∀ d ∈ all, d ∈ Msg.sysAll ++ Msg.cv1All ++ Msg.cv2All) ∧
      ∀ d b b', parse b = .ok (d, b') ↔ d ∈ all ∧ d.tryFrom .ump b = .ok b ∧ b' = b := by
  simp only [groupedParsers, List.mem_cons, List.not_mem_nil, or_false] at hp
  rcases hp with rfl | rfl | rfl
  · exact ⟨Msg.sysAll, fun d h => by simp [h], C10_system_common⟩
  · exact ⟨Msg.cv1All, fun d h => by simp [h], C10_channel_voice1⟩
  · exact ⟨Msg.cv2All, fun d h => by simp [h], C10_channel_voice2⟩

/-- The properties which are four bits of the first word. -/
theorem nibble_value {f : Fld} {pos : Nat} {v : f.Ty → Nat}
    (hf : f.isConst = false) (hp : f.pieces = [(0, pos, 4)]) (hn : f.umpBits.need ≤ 1)
    (hv : ∀ k x, f.Denotes k x → k = v x) {b : Buf .ump} (hb : 1 ≤ b.length) {x : f.Ty}
    (h : f.read .ump b = .ok x) : fieldAt b 0 pos 4 = some (v x) := by
  obtain ⟨k, h1, h2⟩ := Fld.read32_value f hf (by omega) h
  rw [hp, valueOf1 (by omega)] at h1
  rw [fieldAt_ok (by omega), ← hv k x h2]
  exact h1

theorem group_read (b : Buf .ump) (hb : 1 ≤ b.length) :
    ∃ g : BitVec 4, groupFld.read .ump b = .ok g ∧ fieldAt b 0 4 4 = some g.toNat := by
  cases b with
  | nil => simp at hb
  | cons w b =>
    exact ⟨_, rfl, nibble_value (f := groupFld) (v := fun x : BitVec 4 => x.toNat) rfl (by decide)
      (by decide) (fun _ _ h => h) hb rfl⟩

theorem mask_bits {s : UmpSchema} {pos : Nat}
    (h : s = ⟨0x0F000000, 0, 0, 0⟩ ∧ pos = 4 ∨ s = ⟨0x000F0000, 0, 0, 0⟩ ∧ pos = 12) :
    ∀ i p, p < 32 → (s.at i).getMsbD p = true → i = 0 ∧ pos ≤ p ∧ p < pos + 4 := by
  intro i p hp hm
  match i with
  | 0 =>
    refine ⟨rfl, ?_⟩
    have h1 : ∀ p : Fin 32, (0x0F000000#32).getMsbD p.val = true → 4 ≤ p.val ∧ p.val < 8 := by decide
    have h2 : ∀ p : Fin 32, (0x000F0000#32).getMsbD p.val = true → 12 ≤ p.val ∧ p.val < 16 := by
      decide
    rcases h with ⟨rfl, rfl⟩ | ⟨rfl, rfl⟩
    · exact h1 ⟨p, hp⟩ hm
    · exact h2 ⟨p, hp⟩ hm
  | 1 | 2 | 3 =>
    rcases h with ⟨rfl, rfl⟩ | ⟨rfl, rfl⟩ <;>
      exact absurd (show (0#32).getMsbD p = true from hm) (by simp)
  | n + 4 => exact absurd (show (0#32).getMsbD p = true from hm) (by simp)

/-- C52: `group()` of `SystemCommon`, `ChannelVoice1` and `ChannelVoice2` values obtained by
parsing is the four bits behind the message type; `set_group` stores the group, keeps the
variant and touches no other bit, and the result parses to the same variant. -/
theorem C52_enum_group {parse : Buf .ump → Res (MsgDesc × Buf .ump)} (hp : parse ∈ groupedParsers)
    (b : Buf .ump) (x : MsgDesc × Buf .ump) (hok : parse b = .ok x) :
    (∃ g, FixedEnum.group x = .ok g ∧ fieldAt b 0 4 4 = some g.toNat) ∧
    ∀ g, ∃ b', FixedEnum.setGroup g x = .ok (x.1, b') ∧ FixedEnum.group (x.1, b') = .ok g ∧
      fieldAt b' 0 4 4 = some g.toNat ∧ parse b' = .ok (x.1, b') ∧
      ChangedOnly b b' fun i p => i = 0 ∧ 4 ≤ p ∧ p < 8 := by
  obtain ⟨all, hall, hiff⟩ := grouped_parser hp
  obtain ⟨d, b1⟩ := x
  obtain ⟨hd, ht, rfl⟩ := (hiff d b b1).mp hok
  obtain ⟨hg, hda, hsz⟩ := grouped_props d (hall d hd)
  have hb := ((tryFrom_iff d .ump b1).mp ht).1
  have hb1 : 1 ≤ b1.length := Nat.le_trans hsz hb
  constructor
  · obtain ⟨g, h1, h2⟩ := group_read b1 hb1
    exact ⟨g, by unfold FixedEnum.group; rw [fixedEnum_read hg]; exact h1, h2⟩
  · intro g
    obtain ⟨b', h1, h2, h3, h4⟩ := set_accepted hda hg rfl b1 ht g rfl
      (bit := fun i p => i = 0 ∧ 4 ≤ p ∧ p < 8) (mask_bits (.inl ⟨rfl, rfl⟩))
    have hb' : 1 ≤ b'.length := by rw [h4.1]; exact hb1
    obtain ⟨g', f1, f2⟩ := group_read b' hb'
    rw [h3] at f1
    cases f1
    exact ⟨b', fixedEnum_write hg b1 b' g h1,
      by unfold FixedEnum.group; rw [fixedEnum_read hg]; exact h3, f2, (hiff d b' b').mpr ⟨hd, h2, rfl⟩, h4⟩

example : (∃ g, FixedEnum.group (Msg.cv2NoteOn, [0x4A973C00, 0x80000000]) = .ok g ∧
      fieldAt [0x4A973C00, 0x80000000] 0 4 4 = some g.toNat) :=
  (C52_enum_group (parse := ChannelVoice2.tryFrom) (by simp [groupedParsers])
    [0x4A973C00, 0x80000000] (Msg.cv2NoteOn, [0x4A973C00, 0x80000000]) (by decide +kernel)).1

theorem channel2_props : ∀ d ∈ Msg.cv2All,
    ("channel", channel2Fld) ∈ d.props ∧ d ∈ Msg.all ∧ 1 ≤ d.umpSize := by decide +kernel

theorem channel1_props : ∀ d ∈ Msg.cv1All,
    ("channel", channel1Fld) ∈ d.props ∧ d ∈ Msg.all ∧ d ∈ Msg.hybridAll ∧ 1 ≤ d.umpSize ∧
      1 ≤ d.minSize .bytes ∧ d.name ≠ "system_common::SongPositionPointer" := by decide +kernel

theorem channel2_read (b : Buf .ump) (hb : 1 ≤ b.length) :
    ∃ c : BitVec 4, channel2Fld.read .ump b = .ok c ∧ fieldAt b 0 12 4 = some c.toNat := by
  cases b with
  | nil => simp at hb
  | cons w b =>
    exact ⟨_, rfl, nibble_value (f := channel2Fld) (v := fun x : BitVec 4 => x.toNat) rfl (by decide)
      (by decide) (fun _ _ h => h) hb rfl⟩

theorem channel1_read (b : Buf .ump) (hb : 1 ≤ b.length) :
    ∃ c : BitVec 4, channel1Fld.read .ump b = .ok c ∧ fieldAt b 0 12 4 = some c.toNat := by
  cases b with
  | nil => simp at hb
  | cons w b =>
    exact ⟨_, rfl, nibble_value (f := channel1Fld) (v := fun x : BitVec 4 => x.toNat) rfl (by decide)
      (by decide) (fun _ _ h => h) hb rfl⟩

theorem channel1_read8 (b : Buf .bytes) (hb : 1 ≤ b.length) :
    ∃ c : BitVec 4, channel1Fld.read .bytes b = .ok c ∧ fieldAt8 b 0 4 4 = some c.toNat := by
  cases b with
  | nil => simp at hb
  | cons w b =>
    refine ⟨_, rfl, ?_⟩
    obtain ⟨k, h1, h2⟩ := Fld.read8_value channel1Fld rfl (b := w :: b) rfl
    have hp : channel1Fld.pieces8 = [(0, 4, 4)] := by decide
    rw [hp] at h1
    have h2 : k = BitVec.toNat (w := 4) _ := h2
    rw [← h2]
    simp only [valueOf8, fieldAt8_ok (b := w :: b) (i := 0) (by simp)] at h1
    rw [fieldAt8_ok (by simp)]
    simpa using h1

/-- C52: `channel()` of a parsed `ChannelVoice2` is the four bits behind the status;
`set_channel` stores the channel, keeps the variant and touches no other bit, and the result
parses to the same variant. -/
theorem C52_channel_voice2_channel (b : Buf .ump) (x : MsgDesc × Buf .ump)
    (hok : ChannelVoice2.tryFrom b = .ok x) :
    (∃ c, ChannelVoice2.channel x = .ok c ∧ fieldAt b 0 12 4 = some c.toNat) ∧
    ∀ c, ∃ b', ChannelVoice2.setChannel c x = .ok (x.1, b') ∧
      ChannelVoice2.channel (x.1, b') = .ok c ∧ fieldAt b' 0 12 4 = some c.toNat ∧
      ChannelVoice2.tryFrom b' = .ok (x.1, b') ∧
      ChangedOnly b b' fun i p => i = 0 ∧ 12 ≤ p ∧ p < 16 := by
  obtain ⟨d, b1⟩ := x
  obtain ⟨hd, ht, rfl⟩ := (C10_channel_voice2 d b b1).mp hok
  obtain ⟨hg, hda, hsz⟩ := channel2_props d hd
  have hb1 : 1 ≤ b1.length := Nat.le_trans hsz ((tryFrom_iff d .ump b1).mp ht).1
  constructor
  · obtain ⟨g, h1, h2⟩ := channel2_read b1 hb1
    exact ⟨g, by unfold ChannelVoice2.channel; rw [fixedEnum_read hg]; exact h1, h2⟩
  · intro g
    obtain ⟨b', h1, h2, h3, h4⟩ := set_accepted hda hg rfl b1 ht g rfl
      (bit := fun i p => i = 0 ∧ 12 ≤ p ∧ p < 16) (mask_bits (.inr ⟨rfl, rfl⟩))
    obtain ⟨g', f1, f2⟩ := channel2_read b' (by rw [h4.1]; exact hb1)
    rw [h3] at f1
    cases f1
    exact ⟨b', fixedEnum_write hg b1 b' g h1,
      by unfold ChannelVoice2.channel; rw [fixedEnum_read hg]; exact h3, f2,
      (C10_channel_voice2 d b' b').mpr ⟨hd, h2, rfl⟩, h4⟩

example : (∃ c, ChannelVoice2.channel (Msg.cv2NoteOn, [0x4A973C00, 0x80000000]) = .ok c ∧
      fieldAt [0x4A973C00, 0x80000000] 0 12 4 = some c.toNat) :=
  (C52_channel_voice2_channel [0x4A973C00, 0x80000000] (Msg.cv2NoteOn, [0x4A973C00, 0x80000000])
    (by decide +kernel)).1

/-- C52: the same for `ChannelVoice1` over UMP. -/
theorem C52_channel_voice1_channel (b : Buf .ump) (x : MsgDesc × Buf .ump)
    (hok : ChannelVoice1.tryFrom .ump b = .ok x) :
    (∃ c, ChannelVoice1.channel .ump x = .ok c ∧ fieldAt b 0 12 4 = some c.toNat) ∧
    ∀ c, ∃ b', ChannelVoice1.setChannel .ump c x = .ok (x.1, b') ∧
      ChannelVoice1.channel .ump (x.1, b') = .ok c ∧ fieldAt b' 0 12 4 = some c.toNat ∧
      ChannelVoice1.tryFrom .ump b' = .ok (x.1, b') ∧
      ChangedOnly b b' fun i p => i = 0 ∧ 12 ≤ p ∧ p < 16 := by
  obtain ⟨d, b1⟩ := x
  obtain ⟨hd, ht, rfl⟩ := (C10_channel_voice1 d b b1).mp hok
  obtain ⟨hg, hda, _, hsz, _⟩ := channel1_props d hd
  have hb1 : 1 ≤ b1.length := Nat.le_trans hsz ((tryFrom_iff d .ump b1).mp ht).1
  constructor
  · obtain ⟨g, h1, h2⟩ := channel1_read b1 hb1
    exact ⟨g, by unfold ChannelVoice1.channel; rw [fixedEnum_read hg]; exact h1, h2⟩
  · intro g
    obtain ⟨b', h1, h2, h3, h4⟩ := set_accepted hda hg rfl b1 ht g rfl
      (bit := fun i p => i = 0 ∧ 12 ≤ p ∧ p < 16) (mask_bits (.inr ⟨rfl, rfl⟩))
    obtain ⟨g', f1, f2⟩ := channel1_read b' (by rw [h4.1]; exact hb1)
    rw [h3] at f1
    cases f1
    exact ⟨b', fixedEnum_write hg b1 b' g h1,
      by unfold ChannelVoice1.channel; rw [fixedEnum_read hg]; exact h3, f2,
      (C10_channel_voice1 d b' b').mpr ⟨hd, h2, rfl⟩, h4⟩

example : (∃ c, ChannelVoice1.channel .ump (Msg.cv1NoteOn, [0x2A973C40]) = .ok c ∧
      fieldAt [0x2A973C40] 0 12 4 = some c.toNat) :=
  (C52_channel_voice1_channel [0x2A973C40] (Msg.cv1NoteOn, [0x2A973C40]) (by decide +kernel)).1

/-- C52: the same for `ChannelVoice1` over bytes, where the channel is the low half of the
status byte. -/
theorem C52_channel_voice1_bytes_channel (b : Buf .bytes) (x : MsgDesc × Buf .bytes)
    (hok : ChannelVoice1.tryFrom .bytes b = .ok x) :
    (∃ c, ChannelVoice1.channel .bytes x = .ok c ∧ fieldAt8 b 0 4 4 = some c.toNat) ∧
    ∀ c, ∃ b', ChannelVoice1.setChannel .bytes c x = .ok (x.1, b') ∧
      ChannelVoice1.channel .bytes (x.1, b') = .ok c ∧ fieldAt8 b' 0 4 4 = some c.toNat ∧
      ChannelVoice1.tryFrom .bytes b' = .ok (x.1, b') ∧
      ChangedOnly b b' fun i p => i = 0 ∧ 4 ≤ p ∧ p < 8 := by
  obtain ⟨d, b1⟩ := x
  obtain ⟨hd, ht, rfl⟩ := (C11_channel_voice1 d b b1).mp hok
  obtain ⟨hg, _, hda, _, hsz, hne⟩ := channel1_props d hd
  have hb := ((tryFrom_iff d .bytes b1).mp ht).1
  have hb1 : 1 ≤ b1.length := Nat.le_trans hsz hb
  constructor
  · obtain ⟨g, h1, h2⟩ := channel1_read8 b1 hb1
    exact ⟨g, by unfold ChannelVoice1.channel; rw [fixedEnum_read hg]; exact h1, h2⟩
  · intro g
    obtain ⟨b', h1, h2, h3, h4, _⟩ := C09_bytes_history_partial hda b1 ht (fun h => absurd h hne)
      [⟨"channel", channel1Fld, g⟩] (by
        intro c hc
        rw [List.mem_singleton] at hc
        subst hc
        exact ⟨hg, rfl, rfl⟩)
    have hw : channel1Fld.write .bytes b1 g = .ok b' := by
      simp only [runSetters] at h1
      cases e : channel1Fld.write .bytes b1 g with
      | ok x => rw [e] at h1; exact h1
      | err e' => rw [e] at h1; cases h1
      | panic => rw [e] at h1; cases h1
    have h5 := h4 [] "channel" channel1Fld g [] rfl (by simp)
    have hfp := C04_bytes_footprint hda hg rfl b1 b' hb (fun h => absurd h hne) g hw
    obtain ⟨g', f1, f2⟩ := channel1_read8 b' (by omega)
    rw [h5] at f1
    cases f1
    refine ⟨b', fixedEnum_write hg b1 b' g hw,
      by unfold ChannelVoice1.channel; rw [fixedEnum_read hg]; exact h5, f2,
      (C11_channel_voice1 d b' b').mpr ⟨hd, h3, rfl⟩,
      changedOnly_of_lsb h2 (fun i h h' k hk => (hfp.2 i h h' k hk).1) ?_⟩
    intro i p hp hm
    match i with
    | 0 =>
      have : ∀ p : Fin 8, (0x0F#8).getMsbD p.val = true → 4 ≤ p.val ∧ p.val < 8 := by decide
      exact ⟨rfl, this ⟨p, hp⟩ hm⟩
    | 1 | 2 => exact absurd (show (0#8).getMsbD p = true from hm) (by simp)
    | n + 3 => exact absurd (show (0#8).getMsbD p = true from hm) (by simp)

example : (∃ c, ChannelVoice1.channel .bytes (Msg.cv1NoteOn, [0x97, 0x3C, 0x40]) = .ok c ∧
      fieldAt8 [0x97, 0x3C, 0x40] 0 4 4 = some c.toNat) :=
  (C52_channel_voice1_bytes_channel [0x97, 0x3C, 0x40] (Msg.cv1NoteOn, [0x97, 0x3C, 0x40])
    (by decide +kernel)).1

theorem flex_props : ∀ d ∈ Msg.flexAll,
    ("group", groupFld) ∈ d.props ∧ d ∈ Msg.all ∧ 1 ≤ d.umpSize := by decide +kernel

theorem flex_kinds : ∀ e ∈ umpTable, e.2.type = 13 →
    (∃ d ∈ Msg.flexAll, e.1 = .fixed d) ∨ ∃ t ∈ FlexText.all, e.1 = .flexText t := by
  decide +kernel

/-- C52: `group()` of a parsed `FlexData` is the four bits behind the message type;
`set_group` stores the group, keeps the variant and touches nothing but group fields of
packets, and the result parses to the same variant.  (C27 says that it reaches every packet.) -/
theorem C52_flex_data_group (b : Buf .ump) (x : UmpKind × Buf .ump)
    (hok : FlexData.tryFrom b = .ok x) :
    (∃ g, FlexData.group x = .ok g ∧ fieldAt b 0 4 4 = some g.toNat) ∧
    ∀ g, ∃ b', FlexData.setGroup g x = .ok (x.1, b') ∧ FlexData.group (x.1, b') = .ok g ∧
      fieldAt b' 0 4 4 = some g.toNat ∧ FlexData.tryFrom b' = .ok (x.1, b') ∧
      ChangedOnly b b' fun i p => i % 4 = 0 ∧ 4 ≤ p ∧ p < 8 := by
  obtain ⟨k, b1⟩ := x
  obtain ⟨⟨h, he, h13⟩, hm, ht, rfl⟩ := (C10_flex_data_partial k b b1).mp hok
  rcases flex_kinds _ he h13 with ⟨d, hd, hk⟩ | ⟨t, htx, hk⟩
  · have hk : k = .fixed d := hk
    subst hk
    have ht : d.tryFrom .ump b1 = .ok b1 := ht
    obtain ⟨hg, hda, hsz⟩ := flex_props d hd
    have hb1 : 1 ≤ b1.length := Nat.le_trans hsz ((tryFrom_iff d .ump b1).mp ht).1
    constructor
    · obtain ⟨g, h1, h2⟩ := group_read b1 hb1
      exact ⟨g, by
        show FixedEnum.read .ump "group" groupFld (d, b1) = _
        rw [fixedEnum_read hg]; exact h1, h2⟩
    · intro g
      obtain ⟨b', h1, h2, h3, h4⟩ := set_accepted hda hg rfl b1 ht g rfl
        (bit := fun i p => i % 4 = 0 ∧ 4 ≤ p ∧ p < 8) (fun i p hp hmm => by
          obtain ⟨rfl, h⟩ := mask_bits (.inl ⟨rfl, rfl⟩) i p hp hmm
          exact ⟨rfl, h⟩)
      obtain ⟨g', f1, f2⟩ := group_read b' (by rw [h4.1]; exact hb1)
      rw [h3] at f1
      cases f1
      refine ⟨b', ?_, ?_, f2, (C10_flex_data_partial _ b' b').mpr ⟨⟨h, he, h13⟩, hm, h2, rfl⟩, h4⟩
      · show (FixedEnum.write .ump "group" groupFld g (d, b1) >>= fun y => pure (asUmp y)) = _
        rw [fixedEnum_write hg b1 b' g h1]; rfl
      · show FixedEnum.read .ump "group" groupFld (d, b') = _
        rw [fixedEnum_read hg]; exact h3
  · have hk : k = .flexText t := hk
    subst hk
    have ht : t.tryFrom b1 = .ok b1 := ht
    have A := (FlexText.tryFrom_iff t b1).mp ht
    have hgrp : ∀ {b : Buf .ump} {g}, FlexText.group b = .ok g → fieldAt b 0 4 4 = some g.toNat := by
      intro b g hg
      unfold FlexText.group at hg
      obtain ⟨h0, hg⟩ := at'_inv hg
      cases hg
      rw [fieldAt_ok h0]
      exact congrArg some (nibble_field _ (i := 1) (by omega)).symm
    constructor
    · obtain ⟨⟨g, hg⟩, _⟩ := C06_flex_text_getters t b1 ht
      exact ⟨g, hg, hgrp hg⟩
    · intro g
      obtain ⟨h1, _, _, _, _, h2⟩ := C27_flex_text_set_group t b1 A g
      refine ⟨FlexText.setGroup b1 g, rfl, h1, hgrp h1, (C10_flex_data_partial _ _ _).mpr
        ⟨⟨h, he, h13⟩, hm, (FlexText.tryFrom_iff t _).mpr h2, rfl⟩, FlexText.setGroup_length b1 g, ?_⟩
      intro i p hp
      rw [FlexText.setGroup_word]
      split
      · next hi =>
        cases b1[i]? with
        | none => rfl
        | some w =>
          simp only [Option.map_some, Option.some.injEq]
          by_cases h32 : p < 32
          · have := (C42_u32_positions.2.2.1 1 (by omega)).2 w g p h32
            rw [this, if_neg (fun hc => hp ⟨hi.1, by omega, by omega⟩)]
          · rw [BitVec.getMsbD_of_ge _ _ (show 32 ≤ p by omega),
              BitVec.getMsbD_of_ge _ _ (show 32 ≤ p by omega)]
      · rfl

example : (∃ g, FlexData.group (.flexText ⟨"CopyrightNotice", 1, 4⟩, sampleFlexTwo) = .ok g ∧
      fieldAt sampleFlexTwo 0 4 4 = some g.toNat) :=
  (C52_flex_data_group sampleFlexTwo (.flexText ⟨"CopyrightNotice", 1, 4⟩, sampleFlexTwo)
    (by decide +kernel)).1

/-- C52: `bank()` and `status()` of a parsed flex data message whose last packet is there in
full are the bank and the status of its type. -/
theorem C52_flex_bank_status {k : UmpKind} {h : Header} (he : (k, h) ∈ umpTable)
    (h13 : h.type = 13) (b : Buf .ump) (ht : k.tryFrom b = .ok b) (hc : k.Complete b) :
    k.flexBank b = .ok (h.code / 256) ∧
      ∃ s, k.flexStatus b = .ok s ∧ s.toNat = h.code % 256 := by
  have hroom : ∀ e ∈ umpTable, e.2.type = 13 → e.1.room = 0 ∧ e.2.pos = 16 ∧ e.2.width = 16 ∧
      e.2.code / 256 ≤ 2 ∧ e.2.code < 65536 := by decide +kernel
  obtain ⟨hr, hpos, hwid, hc2, _⟩ := hroom _ he h13
  have hof := (accepted_header he (by rw [hr]; omega) ht).2
  rw [hpos, hwid] at hof
  have hdata : ∃ d, k.data b = .ok d ∧ d[0]? = b[0]? := by
    rcases flex_kinds _ he h13 with ⟨d, hd, hk⟩ | ⟨t, htx, hk⟩
    · have hk : k = .fixed d := hk
      subst hk
      obtain ⟨_, hda, hsz⟩ := flex_props d hd
      have hb := ((tryFrom_iff d .ump b).mp ht).1
      refine ⟨_, data_ok hb, ?_⟩
      rw [List.getElem?_take_of_lt (by exact hsz)]
    · have hk : k = .flexText t := hk
      subst hk
      have ht : t.tryFrom b = .ok b := ht
      obtain ⟨d, ps, h1, h2, _⟩ := C06_flex_text_data_partial t b ht hc
      have hp := FlexText.run_pos ((FlexText.tryFrom_iff t b).mp ht)
      refine ⟨d, h1, ?_⟩
      rw [h2, List.getElem?_take_of_lt (by omega)]
  obtain ⟨d, hd, h0⟩ := hdata
  cases hw : b[0]? with
  | none => rw [fieldAt, hw] at hof; cases hof
  | some w =>
    rw [fieldAt, hw] at hof
    have hv : w.toNat % 65536 = h.code := by
      have := Option.some.inj hof
      simpa [field] using this
    have ha : at' d 0 = .ok w := by unfold at'; rw [h0, hw]
    constructor
    · unfold UmpKind.flexBank
      rw [hd, Res.ok_bind, ha, Res.ok_bind]
      have : ((w &&& 0x0000FF00#32) >>> 8).toNat = h.code / 256 := by
        rw [BitVec.toNat_ushiftRight, BitVec.toNat_and]
        show (w.toNat &&& 65280) >>> 8 = _
        rw [Nat.shiftRight_and_distrib, Nat.shiftRight_eq_div_pow]
        show w.toNat / 2 ^ 8 &&& 255 = _
        rw [show (255 : Nat) = 2 ^ 8 - 1 from rfl, Nat.and_two_pow_sub_one_eq_mod]
        omega
      simp only [this]
      rw [if_pos hc2]; rfl
    · refine ⟨_, by unfold UmpKind.flexStatus; rw [hd, Res.ok_bind, ha, Res.ok_bind]; rfl, ?_⟩
      rw [octet_field w (i := 3) (by omega)]
      simp only [field]
      omega

example : UmpKind.flexBank (.flexText ⟨"CopyrightNotice", 1, 4⟩) sampleFlexTwo = .ok 1 :=
  (C52_flex_bank_status (k := .flexText ⟨"CopyrightNotice", 1, 4⟩) (h := ⟨13, 16, 16, 0x0104⟩)
    (by decide) rfl sampleFlexTwo (by decide +kernel)
    (show 4 * (FlexText.run sampleFlexTwo).length ≤ sampleFlexTwo.length by decide +kernel)).1

/-! ## C13: conversion of the enums -/

theorem hybrid_enum {p8 : Buf .bytes → Res (MsgDesc × Buf .bytes)}
    {p32 : Buf .ump → Res (MsgDesc × Buf .ump)} (hp : (p8, p32) ∈ hybridParsers) :
    ∃ all : List MsgDesc, (∀ d ∈ all, d ∈ Msg.hybridAll) ∧
      (∀ d b b', p8 b = .ok (d, b') ↔ d ∈ all ∧ d.tryFrom .bytes b = .ok b ∧ b' = b) ∧
      ∀ d b b', p32 b = .ok (d, b') ↔ d ∈ all ∧ d.tryFrom .ump b = .ok b ∧ b' = b := by
  simp only [hybridParsers, List.mem_cons, List.not_mem_nil, or_false, Prod.mk.injEq] at hp
  rcases hp with ⟨rfl, rfl⟩ | ⟨rfl, rfl⟩
  · exact ⟨Msg.sysAll, by decide +kernel, C11_system_common, C10_system_common⟩
  · exact ⟨Msg.cv1All, by decide +kernel, C11_channel_voice1, C10_channel_voice1⟩

/-- C13 for the enums, bytes to UMP: the converted `SystemCommon` or `ChannelVoice1` is the same
variant, parses as such, has group 0 and the same value of every property; into an array this
succeeds exactly when the word fits. -/
theorem C13_enum_bytes_to_ump_partial {p8 : Buf .bytes → Res (MsgDesc × Buf .bytes)}
    {p32 : Buf .ump → Res (MsgDesc × Buf .ump)} (hp : (p8, p32) ∈ hybridParsers)
    (a a' : Buf .bytes) (d : MsgDesc) (hok : p8 a = .ok (d, a'))
    (h3 : d.name = "system_common::SongPositionPointer" → 3 ≤ a.length) :
    (∃ u, HybridEnum.convertVec .bytes .ump (d, a') = .ok (d, u) ∧ u.length = 1 ∧
      p32 u = .ok (d, u) ∧ FixedEnum.group (d, u) = .ok 0 ∧
      ∀ n f, (n, f) ∈ d.props → f.accessible .bytes = true → f.read .ump u = f.read .bytes a) ∧
    HybridEnum.tryConvertArray .bytes .ump 0 (d, a') = .err .bufferOverflow ∧
    ∀ size, 1 ≤ size → ∃ u, HybridEnum.tryConvertArray .bytes .ump size (d, a') = .ok (d, u) ∧
      u.length = size ∧ p32 u = .ok (d, u) ∧ FixedEnum.group (d, u) = .ok 0 ∧
      ∀ n f, (n, f) ∈ d.props → f.accessible .bytes = true → f.read .ump u = f.read .bytes a := by
  obtain ⟨all, hall, h8, h32⟩ := hybrid_enum hp
  obtain ⟨hd, ht, rfl⟩ := (h8 d a a').mp hok
  have hus : ∀ d ∈ Msg.hybridAll, d.umpSize = 1 ∧ ("group", groupFld) ∈ d.props := by decide +kernel
  obtain ⟨hus, hg⟩ := hus d (hall d hd)
  have hgr : ∀ {u}, Fld.read .ump groupFld u = .ok 0 → FixedEnum.group (d, u) = .ok 0 := by
    intro u h
    unfold FixedEnum.group
    rw [fixedEnum_read hg]; exact h
  refine ⟨?_, ?_, ?_⟩
  · obtain ⟨u, _, _, h1, h2, h4, h5, h6⟩ := (C13_bytes_to_ump (hall d hd) a' ht h3 1).2 (by omega)
    refine ⟨u, ?_, h2, (h32 d u u).mpr ⟨hd, h4, rfl⟩, hgr h5, h6⟩
    show (d.convertVec .bytes .ump a' >>= _) = _
    rw [h1 hus.symm]; rfl
  · show (d.tryConvertArray .bytes .ump 0 a' >>= _) = _
    rw [(C13_bytes_to_ump (hall d hd) a' ht h3 0).1 (by omega)]; rfl
  · intro size hs
    obtain ⟨u, h1, _, _, h2, h4, h5, h6⟩ := (C13_bytes_to_ump (hall d hd) a' ht h3 size).2 (by omega)
    refine ⟨u, ?_, h2, (h32 d u u).mpr ⟨hd, h4, rfl⟩, hgr h5, h6⟩
    show (d.tryConvertArray .bytes .ump size a' >>= _) = _
    rw [h1]; rfl

example : ∃ u, HybridEnum.convertVec .bytes .ump (Msg.cv1NoteOn, [0x97, 0x3C, 0x40]) =
    .ok (Msg.cv1NoteOn, u) ∧ u.length = 1 :=
  have ⟨⟨u, h1, h2, _⟩, _⟩ := C13_enum_bytes_to_ump_partial
    (p8 := ChannelVoice1.tryFrom .bytes) (p32 := ChannelVoice1.tryFrom .ump)
    (by simp [hybridParsers]) [0x97, 0x3C, 0x40] [0x97, 0x3C, 0x40] Msg.cv1NoteOn
    (by decide +kernel) (by decide)
  ⟨u, h1, h2⟩

/-- C13 for the enums, UMP to bytes.  (`SongPositionPointer` needs three bytes and is given
two; see `C13_song_position_pointer_violation`.) -/
theorem C13_enum_ump_to_bytes_partial {p8 : Buf .bytes → Res (MsgDesc × Buf .bytes)}
    {p32 : Buf .ump → Res (MsgDesc × Buf .ump)} (hp : (p8, p32) ∈ hybridParsers)
    (a a' : Buf .ump) (d : MsgDesc) (hok : p32 a = .ok (d, a'))
    (h3 : d.name ≠ "system_common::SongPositionPointer") :
    (∃ u, HybridEnum.convertVec .ump .bytes (d, a') = .ok (d, u) ∧
      u.length = d.minSize .bytes ∧ p8 u = .ok (d, u) ∧
      ∀ n f, (n, f) ∈ d.props → f.accessible .bytes = true → f.read .bytes u = f.read .ump a) ∧
    (∀ size, size < d.minSize .bytes →
      HybridEnum.tryConvertArray .ump .bytes size (d, a') = .err .bufferOverflow) ∧
    ∀ size, d.minSize .bytes ≤ size →
      ∃ u, HybridEnum.tryConvertArray .ump .bytes size (d, a') = .ok (d, u) ∧
        u.length = size ∧ p8 u = .ok (d, u) ∧
        ∀ n f, (n, f) ∈ d.props → f.accessible .bytes = true → f.read .bytes u = f.read .ump a := by
  obtain ⟨all, hall, h8, h32⟩ := hybrid_enum hp
  obtain ⟨hd, ht, rfl⟩ := (h32 d a a').mp hok
  have hr : ∀ d ∈ Msg.hybridAll, d.name ≠ "system_common::SongPositionPointer" →
      d.room8 = d.minSize .bytes := by decide +kernel
  have hr := hr d (hall d hd) h3
  refine ⟨?_, ?_, ?_⟩
  · obtain ⟨u, _, _, h1, h2, h4, h6⟩ :=
      (C13_ump_to_bytes_partial (hall d hd) a' ht (d.minSize .bytes)).2 (by omega)
    refine ⟨u, ?_, h2, (h8 d u u).mpr ⟨hd, h4, rfl⟩, h6⟩
    show (d.convertVec .ump .bytes a' >>= _) = _
    rw [h1 rfl]; rfl
  · intro size hs
    show (d.tryConvertArray .ump .bytes size a' >>= _) = _
    rw [(C13_ump_to_bytes_partial (hall d hd) a' ht size).1 hs]; rfl
  · intro size hs
    obtain ⟨u, h1, _, _, h2, h4, h6⟩ :=
      (C13_ump_to_bytes_partial (hall d hd) a' ht size).2 (by omega)
    refine ⟨u, ?_, h2, (h8 d u u).mpr ⟨hd, h4, rfl⟩, h6⟩
    show (d.tryConvertArray .ump .bytes size a' >>= _) = _
    rw [h1]; rfl

example : ∃ u, HybridEnum.convertVec .ump .bytes (Msg.cv1NoteOn, [0x2A973C40]) =
    .ok (Msg.cv1NoteOn, u) ∧ u.length = 3 :=
  have ⟨⟨u, h1, h2, _⟩, _⟩ := C13_enum_ump_to_bytes_partial
    (p8 := ChannelVoice1.tryFrom .bytes) (p32 := ChannelVoice1.tryFrom .ump)
    (by simp [hybridParsers]) [0x2A973C40] [0x2A973C40] Msg.cv1NoteOn
    (by decide +kernel) (by decide)
  ⟨u, h1, h2⟩

end Midi2
