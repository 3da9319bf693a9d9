import Verif.Lemmas.Setting
import Verif.Props.Profiles
import Verif.Props.Served
/-!
# What a successful set request says about the unit: C42, C59

Stated for every unit that works as `Spec.SettingUnit` says, every number of requests of every kind,
and every interleaving.
-/
namespace Comfo.Props
open Spec
open scoped List

/-! ## What the requests do -/

/-- The command was written, the next action was to receive the answer. -/
def Sent (bs : List UInt8) (acts : List Act) : Prop :=
  ∃ as r e q bs', acts = as ++ .wrote bs r :: .got e (q, none) :: bs'

theorem Sent.append {bs : List UInt8} {a : List Act} (h : Sent bs a) (x y : List Act) :
    Sent bs (x ++ a ++ y) := by
  obtain ⟨as, r, e, q, bs', rfl⟩ := h
  exact ⟨x ++ as, r, e, q, bs' ++ y, by simp⟩

theorem query_path {p : Packet} (hp : p.data.length ≤ 255) {acts : List Act} {q : Packet}
    (h : Path (queryPacketP p) acts (.ret (q, none))) : Sent (frame p.command p.data) acts := by
  unfold queryPacketP at h
  rw [marshal_ok p hp] at h
  simp only [frame_eq] at h
  rcases path_uncons h with ⟨-, h0⟩ | ⟨a1, p1, acts1, rfl, h1, h⟩
  · cases h0
  cases h1
  rcases path_uncons h with ⟨-, h0⟩ | ⟨a1, p1, acts1, rfl, h1, h⟩
  · cases h0
  cases h1 with | write r =>
  obtain ⟨n, err⟩ := r
  cases err with
  | some e =>
    rcases path_uncons h with ⟨-, h0⟩ | ⟨a1, p1, acts1, rfl, h1, h⟩
    · cases h0
    cases h1
    rcases path_uncons h with ⟨-, h0⟩ | ⟨a1, p1, acts1, rfl, h1, h⟩
    · simp at h0
    · cases h1
  | none =>
    rcases path_uncons h with ⟨-, h0⟩ | ⟨a1, p1, acts1, rfl, h1, h⟩
    · cases h0
    cases h1 with | read r =>
    obtain ⟨out, err⟩ := r
    cases err with
    | some e =>
      rcases path_uncons h with ⟨-, h0⟩ | ⟨a1, p1, acts1, rfl, h1, h⟩
      · cases h0
      cases h1
      rcases path_uncons h with ⟨-, h0⟩ | ⟨a1, p1, acts1, rfl, h1, h⟩
      · simp at h0
      · cases h1
    | none => exact ⟨[.lock .pm], _, _, out, _, rfl⟩

theorem setQuery_path {inp : SetRequest} {acts : List Act}
    (h : Path (setQueryP inp) acts (.ret none)) :
    ∃ bin, inp.marshalBinary = (bin, none) ∧ Sent (frame inp.requestType bin) acts := by
  have h0 : inp.requestType ≠ 0 := by cases inp <;> simp [SetRequest.requestType]
  unfold setQueryP encodeSetRequest at h
  simp only [h0, if_false] at h
  match hm : inp.marshalBinary with
  | (bin, some e) =>
    simp only [hm] at h
    rcases path_uncons h with ⟨-, h0⟩ | ⟨a1, p1, acts1, rfl, h1, h⟩
    · cases h0
    · cases h1
  | (bin, none) =>
    simp only [hm] at h
    obtain ⟨⟨q, e⟩, as, bs, rfl, h1, h2⟩ := path_bind h
    rcases path_uncons h2 with ⟨rfl, h0⟩ | ⟨a1, p1, acts1, rfl, h3, h⟩
    · simp only [Prog.ret.injEq] at h0
      subst h0
      refine ⟨bin, rfl, ?_⟩
      have hl : bin.length ≤ 255 := by
        cases inp with
        | speed s => simp only [SetRequest.marshalBinary] at hm; split at hm <;> cases hm; simp
        | comfort t =>
          simp only [SetRequest.marshalBinary] at hm
          split at hm <;> cases hm
          simp
        | fanProfiles q => cases hm; simp
      have := query_path (p := { command := inp.requestType, data := bin, expect := false }) hl h1
      simpa using this.append [] []
    · cases h3

/-- All ways in which a `SetFanSpeed` request can have come to its answer. -/
theorem setSpeed_path {abs : UInt32} {rel : Bool} {acts : List Act} {r : Resp} {cv : FloatConv}
    (h : Path ((Call.setSpeed abs rel).prog cv) acts (.ret r)) :
    ∃ (t : Int) (c : Entry FanProfiles) (rest : List Act), acts = .now t :: .lock .fan :: .load .profiles c :: rest ∧
      ∀ v, r = .speed (.ok v) → ∃ m : UInt8, modifySpeed c.val.currentMode abs rel = (m, none) ∧
        v.originalSpeed = c.val.currentMode.toUInt32 ∧ v.targetSpeed = m.toUInt32 ∧
        (v.modified = true → m ≠ c.val.currentMode ∧ Sent (frame 0x99 [m]) rest) ∧
        (v.modified = false → m = c.val.currentMode ∧ ∃ t' : Int, rest = [.now t', .unlock .fan]) := by
  change Path (Prog.bind (setFanSpeed abs rel) _) acts _ at h
  unfold setFanSpeed at h
  rcases path_uncons h with ⟨-, h0⟩ | ⟨a1, p1, acts1, rfl, h1, h⟩
  · cases h0
  change Prog.Next (.now _) _ _ at h1
  cases h1 with | now t =>
  rcases path_uncons h with ⟨-, h0⟩ | ⟨a1, p1, acts1, rfl, h1, h⟩
  · cases h0
  change Prog.Next (.lock _ _) _ _ at h1
  cases h1 with | lock =>
  rcases path_uncons h with ⟨-, h0⟩ | ⟨a1, p1, acts1, rfl, h1, h⟩
  · cases h0
  change Prog.Next (.load _ _) _ _ at h1
  cases h1 with | load c =>
  refine ⟨t, c, acts1, rfl, ?_⟩
  have h : Path (Prog.bind (match modifySpeed c.val.currentMode abs rel with
      | (_, some e) => .unlock .fan <| .ret (.err e)
      | (tgtSpeed, none) =>
        if tgtSpeed ≠ c.val.currentMode then
          (setSpeedP tgtSpeed).bind fun err =>
          match err with
          | some e => .unlock .fan <| .ret (.err (.internal (.lib e)))
          | none =>
            (updatePoll 10 tgtSpeed).bind fun err =>
            match err with
            | some e => .unlock .fan <| .ret (.err (.internal e))
            | none =>
              (update .profiles true).bind fun _ =>
              .now fun stop => .unlock .fan <| .ret (.ok
                { modified := true, originalSpeed := c.val.currentMode.toUInt32,
                  targetSpeed := tgtSpeed.toUInt32, reqTime := timeSub stop t })
        else .now fun stop => .unlock .fan <| .ret (.ok
          { modified := false, originalSpeed := c.val.currentMode.toUInt32,
            targetSpeed := tgtSpeed.toUInt32, reqTime := timeSub stop t }))
      fun a => .ret (.speed a)) acts1 (.ret r) := h
  rintro v rfl
  obtain ⟨x, as, bs, rfl, h1, h2⟩ := path_bind h
  have hx : bs = [] ∧ x = .ok v := by
    rcases path_uncons h2 with ⟨rfl, h0⟩ | ⟨a1, p1, acts1, rfl, h1, h⟩
    · cases h0; exact ⟨rfl, rfl⟩
    · cases h1
  obtain ⟨rfl, rfl⟩ := hx
  rw [List.append_nil]
  have fin : ∀ {x r : Rpc SpeedModified} {acts : List Act},
      Path (.unlock .fan (.ret x)) acts (.ret r) → acts = [.unlock .fan] ∧ r = x := by
    intro x r acts h
    rcases path_uncons h with ⟨rfl, h0⟩ | ⟨a1, p1, acts1, rfl, h1, h⟩
    · cases h0
    cases h1
    rcases path_uncons h with ⟨rfl, h0⟩ | ⟨a1, p1, acts1, rfl, h1, h⟩
    · cases h0; exact ⟨rfl, rfl⟩
    · cases h1
  match hm : modifySpeed c.val.currentMode abs rel with
  | (_, some e) =>
    rw [hm] at h1
    have := (fin h1).2
    cases this
  | (m, none) =>
    rw [hm] at h1
    simp only at h1
    refine ⟨m, rfl, ?_⟩
    split at h1
    · rename_i hne
      obtain ⟨err, as, bs, rfl, hq, h2⟩ := path_bind h1
      cases err with
      | some e => have := (fin h2).2; cases this
      | none =>
        obtain ⟨err, as', bs', rfl, -, h2⟩ := path_bind h2
        cases err with
        | some e => have := (fin h2).2; cases this
        | none =>
          obtain ⟨-, as'', bs'', rfl, -, h2⟩ := path_bind h2
          rcases path_uncons h2 with ⟨-, h0⟩ | ⟨a1, p1, acts1, rfl, h3, h⟩
          · cases h0
          cases h3
          obtain ⟨rfl, h4⟩ := fin h
          injection h4 with h4
          subst h4
          refine ⟨rfl, rfl, fun _ => ⟨hne, ?_⟩, fun h => by cases h⟩
          obtain ⟨bin, hb, hs⟩ := setQuery_path (inp := SetRequest.speed m) hq
          simp only [SetRequest.marshalBinary] at hb
          split at hb <;> cases hb
          simpa [SetRequest.requestType] using hs.append [] _
    · rename_i hne
      rcases path_uncons h1 with ⟨-, h0⟩ | ⟨a1, p1, acts1, rfl, h3, h⟩
      · cases h0
      cases h3
      obtain ⟨rfl, h4⟩ := fin h
      injection h4 with h4
      subst h4
      exact ⟨rfl, rfl, (fun h => by cases h), fun _ => ⟨Classical.not_not.mp hne, _, rfl⟩⟩

/-- All ways in which a `SetComfortTemp` request can have come to its answer. -/
theorem setComfort_path {x : UInt32} {acts : List Act} {r : Resp} {cv : FloatConv}
    (h : Path ((Call.setComfort x).prog cv) acts (.ret r)) :
    ∃ (t : Int) (c : Entry Temps) (rest : List Act), acts = .now t :: .load .temps c :: rest ∧
      ∀ v, r = .comfort (.ok v) → x.toNat ≤ 255 ∧ v.targetTemp = x ∧
        (v.modified = true → ∃ b : UInt8, b.toNat = (x.toNat + 20) * 2 ∧ Sent (frame 0xD3 [b]) rest) ∧
        (v.modified = false → cv.u8 c.val.comfort = x.toUInt8 ∧ ∃ t' : Int, rest = [.now t']) := by
  change Path (Prog.bind (setComfortTemp cv x) _) acts _ at h
  unfold setComfortTemp at h
  rcases path_uncons h with ⟨-, h0⟩ | ⟨a1, p1, acts1, rfl, h1, h⟩
  · cases h0
  change Prog.Next (.now _) _ _ at h1
  cases h1 with | now t =>
  rcases path_uncons h with ⟨-, h0⟩ | ⟨a1, p1, acts1, rfl, h1, h⟩
  · cases h0
  change Prog.Next (.load _ _) _ _ at h1
  cases h1 with | load c =>
  refine ⟨t, c, acts1, rfl, ?_⟩
  have h : Path (Prog.bind (
      if x > 255 then .ret (.err (.invalidArgument .tempTooLarge))
      else if cv.u8 c.val.comfort ≠ x.toUInt8 then
        .lock .temp <|
        (setComfortP x.toUInt8).bind fun err =>
        match err with
        | some e => .unlock .temp <| .ret (.err (.internal (.lib e)))
        | none =>
          (update .temps true).bind fun _ =>
          .now fun stop => .unlock .temp <| .ret (.ok
            { modified := true, originalTemp := cv.u32 c.val.comfort, targetTemp := x,
              reqTime := timeSub stop t })
      else .now fun stop => .ret (.ok
        { modified := false, originalTemp := cv.u32 c.val.comfort, targetTemp := x,
          reqTime := timeSub stop t }))
      fun a => .ret (.comfort a)) acts1 (.ret r) := h
  rintro v rfl
  obtain ⟨y, as, bs, rfl, h1, h2⟩ := path_bind h
  have hx : bs = [] ∧ y = .ok v := by
    rcases path_uncons h2 with ⟨rfl, h0⟩ | ⟨a1, p1, acts1, rfl, h1, h⟩
    · cases h0; exact ⟨rfl, rfl⟩
    · cases h1
  obtain ⟨rfl, rfl⟩ := hx
  rw [List.append_nil]
  have fin0 : ∀ {x r : Rpc ComfortModified} {acts : List Act},
      Path (.ret x) acts (.ret r) → acts = [] ∧ r = x := by
    intro x r acts h
    rcases path_uncons h with ⟨rfl, h0⟩ | ⟨a1, p1, acts1, rfl, h1, h⟩
    · cases h0; exact ⟨rfl, rfl⟩
    · cases h1
  have fin : ∀ {x r : Rpc ComfortModified} {acts : List Act},
      Path (.unlock .temp (.ret x)) acts (.ret r) → acts = [.unlock .temp] ∧ r = x := by
    intro x r acts h
    rcases path_uncons h with ⟨rfl, h0⟩ | ⟨a1, p1, acts1, rfl, h1, h⟩
    · cases h0
    cases h1
    obtain ⟨rfl, rfl⟩ := fin0 h
    exact ⟨rfl, rfl⟩
  by_cases hgt : x > 255
  · rw [if_pos hgt] at h1
    have := (fin0 h1).2
    cases this
  · rw [if_neg hgt] at h1
    have hle : x.toNat ≤ 255 := by
      have := UInt32.not_lt.mp hgt
      simpa [UInt32.le_iff_toNat_le] using this
    refine ⟨hle, ?_⟩
    split at h1
    · rcases path_uncons h1 with ⟨-, h0⟩ | ⟨a1, p1, acts1, rfl, h3, h1⟩
      · cases h0
      cases h3
      obtain ⟨err, as, bs, rfl, hq, h2⟩ := path_bind h1
      cases err with
      | some e => have := (fin h2).2; cases this
      | none =>
        obtain ⟨-, as'', bs'', rfl, -, h2⟩ := path_bind h2
        rcases path_uncons h2 with ⟨-, h0⟩ | ⟨a1, p1, acts1, rfl, h3, h⟩
        · cases h0
        cases h3
        obtain ⟨rfl, h4⟩ := fin h
        injection h4 with h4
        subst h4
        refine ⟨rfl, fun _ => ?_, fun h => by cases h⟩
        obtain ⟨bin, hb, hs⟩ := setQuery_path (inp := SetRequest.comfort (x.toUInt8.toNat : Int)) hq
        simp only [SetRequest.marshalBinary] at hb
        split at hb
        · cases hb
        · rename_i b hb'
          cases hb
          refine ⟨b, ?_, by simpa [SetRequest.requestType] using hs.append [_] _⟩
          have hx8 : x.toUInt8.toNat = x.toNat := by simp; omega
          rw [hx8] at hb'
          unfold temperatureMarshal at hb'
          split at hb'
          · cases hb'
          split at hb'
          · cases hb'
          simp only [Prod.mk.injEq, and_true] at hb'
          rw [← hb']
          simp only [UInt8.toNat_ofNat']
          omega
    · rename_i hne
      rcases path_uncons h1 with ⟨-, h0⟩ | ⟨a1, p1, acts1, rfl, h3, h⟩
      · cases h0
      cases h3
      obtain ⟨rfl, h4⟩ := fin0 h
      injection h4 with h4
      subst h4
      exact ⟨rfl, (fun h => by cases h), fun _ => ⟨Classical.not_not.mp hne, _, rfl⟩⟩

theorem sent_confirmed {t : Tid} {bs : List UInt8} {tr : List (Tid × Act)}
    (h : Sent bs (actsOf t tr)) : ∃ pre rest, Confirmed tr t bs pre rest := by
  obtain ⟨as, r, e, q, bs', h⟩ := h
  obtain ⟨pre, rest, rfl, -, h2⟩ := actsOf_split h
  obtain ⟨mid, post, rfl, h3, -⟩ := actsOf_split (as := []) h2
  refine ⟨pre, _, r, mid, e, q, post, rfl, rfl, fun a ha => ?_⟩
  have : a ∈ actsOf t mid := by
    simp only [actsOf, List.mem_filterMap]
    exact ⟨(t, a), ha, by simp⟩
  rw [h3] at this; cases this

/-- A set request of the library that returned without error has its command confirmed. -/
theorem libSet_path {inp : SetRequest} {acts : List Act}
    (h : Path ((setQueryP inp).map Resp.err) acts (.ret (.err none))) :
    ∃ bin, inp.marshalBinary = (bin, none) ∧ Sent (frame inp.requestType bin) acts := by
  obtain ⟨e, as, bs, rfl, h1, h2⟩ := path_bind h
  rcases path_uncons h2 with ⟨rfl, h0⟩ | ⟨a1, p1, acts1, rfl, h3, h⟩
  · cases h0
    simpa using setQuery_path h1
  · cases h3

/-- The path of a request that was answered. -/
theorem answered_path {S : Setup σ} {w : World σ} {s : Sys σ} (h : Reachable S (Sys.initial w) s)
    {i : Nat} {c : Call} {r : Resp} (ha : Answered s i c r) :
    Path (c.prog S.cv) (actsOf (.client i) s.sh.trace) (.ret r) := by
  obtain ⟨g, hi⟩ := inv1 h
  exact (hi.hist.path i _ ha).1

/-! ## The examples' unit -/

/-- A unit with a fan speed and a comfort temperature, that can be out of order. -/
structure Vent where
  speed : UInt8
  comfort : UInt8
  /-- It does not carry out commands. -/
  broken : Bool := false
  /-- It does not answer questions. -/
  mute : Bool := false
  last : List UInt8 := []
  took : Bool := false
  deriving DecidableEq

def ventLine : Line Vent where
  write bs s := ((bs.length, none),
    if bs = ack then s
    else if bs = frame 0x99 [bs.getD 5 0] then
      if s.broken then { s with last := bs, took := false }
      else { s with speed := bs.getD 5 0, last := bs, took := true }
    else if bs = frame 0xD3 [bs.getD 5 0] then
      if s.broken then { s with last := bs, took := false }
      else { s with comfort := bs.getD 5 0, last := bs, took := true }
    else { s with last := bs, took := false })
  read e s :=
    let cmd := s.last.getD 3 0
    if (cmd = 0x99 ∨ cmd = 0xD3) ∧ s.took = false ∨ s.mute = true ∧ e = true then
      (.ret {} (some .timeout), s)
    else (.ret (if e then
      { command := cmd + 1, data :=
          if cmd = 0xCD then (samplePayload 0xCD).set 8 s.speed
          else if cmd = 0xD1 then (samplePayload 0xD1).set 0 s.comfort
          else samplePayload cmd }
      else {}) none, s)

/-- Somebody uses the panel of the unit. -/
def ventPanel (s s' : Vent) : Prop :=
  ∃ m c b, s' = { s with speed := m, comfort := c, broken := b }

/-- The unit breaks down or is repaired; nobody uses the panel. -/
def ventFault (s s' : Vent) : Prop := ∃ b m, s' = { s with broken := b, mute := m }

/-- The examples' unit works, as long as nobody uses the panel: fan speed. -/
def ventSpeed : SettingUnit 0x99 ventLine ventFault where
  value s := [s.speed]
  last s := s.last
  took s := s.took
  write_last := by
    intro bs s r s' h hb
    simp only [ventLine, if_neg hb, Prod.mk.injEq] at h
    obtain ⟨-, rfl⟩ := h
    split
    · split <;> rfl
    · split
      · split <;> rfl
      · rfl
  write_set := by
    intro d s r s' h
    simp only [ventLine, if_neg (frame_ne_ack _ _), Prod.mk.injEq] at h
    obtain ⟨-, rfl⟩ := h
    split
    · rename_i hf
      split
      · exact .inr ⟨rfl, rfl⟩
      · exact .inl ⟨(frame_inj hf).symm, rfl⟩
    · split
      · rename_i hf
        exact absurd (frame_cmd hf) (by decide)
      · exact .inr ⟨rfl, rfl⟩
  write_other := by
    intro bs s r s' h hb
    simp only [ventLine, if_neg (hb _), Prod.mk.injEq] at h
    obtain ⟨-, rfl⟩ := h
    split
    · rfl
    · split
      · split <;> rfl
      · rfl
  read_same := by
    intro e s r s' h
    simp only [ventLine] at h
    split at h <;> cases h <;> rfl
  read_ack := by
    intro e s q s' d h hl
    simp only [ventLine] at h
    split at h
    · cases h
    · rename_i hc
      have : s.last.getD 3 0 = 0x99 := by rw [hl]; rfl
      cases ht : s.took with
      | true => rfl
      | false => exact absurd (.inl ⟨.inl this, ht⟩) hc
  env_same := by
    rintro s s' ⟨b, m, rfl⟩
    exact ⟨rfl, rfl, rfl⟩

/-- The examples' unit works, as long as nobody uses the panel: comfort temperature. -/
def ventComfort : SettingUnit 0xD3 ventLine ventFault where
  value s := [s.comfort]
  last s := s.last
  took s := s.took
  write_last := ventSpeed.write_last
  write_set := by
    intro d s r s' h
    simp only [ventLine, if_neg (frame_ne_ack _ _), Prod.mk.injEq] at h
    obtain ⟨-, rfl⟩ := h
    split
    · rename_i hf
      exact absurd (frame_cmd hf) (by decide)
    · split
      · rename_i hf
        split
        · exact .inr ⟨rfl, rfl⟩
        · exact .inl ⟨(frame_inj hf).symm, rfl⟩
      · exact .inr ⟨rfl, rfl⟩
  write_other := by
    intro bs s r s' h hb
    simp only [ventLine, if_neg (hb _), Prod.mk.injEq] at h
    obtain ⟨-, rfl⟩ := h
    split
    · rfl
    · split
      · split <;> rfl
      · rfl
  read_same := by
    intro e s r s' h
    simp only [ventLine] at h
    split at h <;> cases h <;> rfl
  read_ack := by
    intro e s q s' d h hl
    simp only [ventLine] at h
    split at h
    · cases h
    · rename_i hc
      have : s.last.getD 3 0 = 0xD3 := by rw [hl]; rfl
      cases ht : s.took with
      | true => rfl
      | false => exact absurd (.inl ⟨.inr this, ht⟩) hc
  env_same := by
    rintro s s' ⟨b, m, rfl⟩
    exact ⟨rfl, rfl, rfl⟩

/-- The examples' unit, its panel out of reach. -/
def vent : Setup Vent := { cv := amd64, line := ventLine, env := ventFault }

/-- The examples' unit with somebody at the panel. -/
def ventOpen : Setup Vent := { cv := amd64, line := ventLine, env := ventPanel }

/-- The unit runs at speed `m` with 21 °C, and the caches of the server say so. -/
def ventStart (m : UInt8) : World Vent :=
  { line := { speed := m, comfort := 82 }
    temps := ⟨{ comfort := 21 }, 0⟩
    profiles := ⟨{ currentMode := m, inLow := 30, outLow := 35 }, 0⟩ }

/-! ## C42 -/

/-- **C42** (violated) The caches are right, then somebody selects speed 4 on the panel of the unit,
and then `SetFanSpeed(2)` succeeds without sending anything: the unit still runs at speed 4. -/
theorem C42_violated : ∃ s v, Reachable ventOpen (Sys.initial (ventStart 2)) s ∧
    Answered s 0 (.setSpeed 2 false) (.speed (.ok v)) ∧ v.targetSpeed = 2 ∧
    s.sh.world.line.speed = 4 := by
  have h1 : Reachable ventOpen (Sys.initial (ventStart 2)) _ :=
    Reachable.start.step (.environment { speed := 4, comfort := 82 } 0 ⟨4, 82, false, rfl⟩)
  have h2 := execs_sound (S := ventOpen) (cmds := [.arrive (.setSpeed 2 false)] ++ steps 5 (.client 0))
    (fun _ _ => trivial) h1 rfl
  exact ⟨_, _, h2, rfl, rfl, rfl⟩


/-- **C42** (violated) Not only the panel can be the cause. `SetFanSpeed(3)` is carried out by the
unit but the fans do not reach their percentages in time: it fails, without refreshing the cache.
`SetFanSpeed(2)` then succeeds without sending anything: the unit still runs at speed 3. -/
theorem C42_violated_after_failure : ∃ s e v, Reachable vent (Sys.initial (ventStart 2)) s ∧
    Answered s 0 (.setSpeed 3 false) (.speed (.err e)) ∧
    Answered s 1 (.setSpeed 2 false) (.speed (.ok v)) ∧ v.targetSpeed = 2 ∧
    s.sh.world.line.speed = 3 := by
  have h2 := execs_sound (S := vent) (cmds := [.arrive (.setSpeed 3 false)] ++ steps 132 (.client 0) ++
    [.arrive (.setSpeed 2 false)] ++ steps 5 (.client 1))
    (fun _ _ => trivial) (.start (s₀ := Sys.initial (ventStart 2))) rfl
  exact ⟨_, _, _, h2, rfl, rfl, rfl, rfl⟩

/-- **C42** (partial) For every unit that works and whose panel nobody uses, at every moment after
`SetFanSpeed` succeeded:
if it reports a modification, the command for the reported speed was written and confirmed, and
unless somebody has written a speed command since, the unit runs at that speed;
if it reports none, the reported speed is the one it found in the cache, and it sent nothing.
Missing: in the second case the unit may run at another speed (`C42_violated`,
`C42_violated_after_failure`). -/
theorem C42_speed_set_partial {S : Setup σ} (U : SettingUnit 0x99 S.line S.env) {w : World σ}
    {s : Sys σ} (h : Reachable S (Sys.initial w) s) {i : Nat} {abs : UInt32} {rel : Bool}
    {v : SpeedModified} (ha : Answered s i (.setSpeed abs rel) (.speed (.ok v))) :
    ∃ m : UInt8, v.targetSpeed = m.toUInt32 ∧ 1 ≤ m.toNat ∧ m.toNat ≤ 4 ∧
      (v.modified = true → ∃ pre rest, Confirmed s.sh.trace (.client i) (frame 0x99 [m]) pre rest ∧
        (NoCommand 0x99 rest → U.value s.sh.world.line = [m])) ∧
      (v.modified = false → ∃ (c : Entry FanProfiles) (pre post : List (Tid × Act)),
        s.sh.trace = pre ++ (.client i, .load .profiles c) :: post ∧ c.val.currentMode = m ∧
        ∀ bs r, (Tid.client i, Act.wrote bs r) ∉ s.sh.trace) := by
  obtain ⟨g, hi⟩ := inv4 U h
  obtain ⟨t, c, rest, hacts, hv⟩ := setSpeed_path (answered_path h ha)
  obtain ⟨m, hm, -, h2, h3, h4⟩ := hv v rfl
  have hr := C39_modify_speed c.val.currentMode abs rel
  rw [hm] at hr
  obtain ⟨h5, h6⟩ := hr.2.1 rfl
  refine ⟨m, h2, h5, h6, fun hmod => ?_, fun hmod => ?_⟩
  · obtain ⟨-, hs⟩ := h3 hmod
    have hs' : Sent (frame 0x99 [m]) (actsOf (.client i) s.sh.trace) := by
      rw [hacts]; simpa using hs.append [_, _, _] []
    obtain ⟨pre, rest, hc⟩ := sent_confirmed hs'
    exact ⟨pre, rest, hc, hi.glob.2.conf _ _ pre rest hc⟩
  · obtain ⟨he, t', hrest⟩ := h4 hmod
    have : actsOf (.client i) s.sh.trace = [.now t, .lock .fan] ++ .load .profiles c :: rest := hacts
    obtain ⟨pre, post, htr, -, -⟩ := actsOf_split this
    refine ⟨c, pre, post, htr, he.symm, fun bs r hmem => ?_⟩
    have : Act.wrote bs r ∈ actsOf (.client i) s.sh.trace := by
      simp only [actsOf, List.mem_filterMap]
      exact ⟨_, hmem, by simp⟩
    rw [hacts, hrest] at this
    simp at this

/-- **C42** (partial) The same for `libcomfo.SetSpeed`, which always sends the command. -/
theorem C42_library_partial {S : Setup σ} (U : SettingUnit 0x99 S.line S.env) {w : World σ}
    {s : Sys σ} (h : Reachable S (Sys.initial w) s) {i : Nat} {m : UInt8}
    (ha : Answered s i (.libSetSpeed m) (.err none)) :
    m.toNat ≤ 4 ∧ ∃ pre rest, Confirmed s.sh.trace (.client i) (frame 0x99 [m]) pre rest ∧
      (NoCommand 0x99 rest → U.value s.sh.world.line = [m]) := by
  obtain ⟨g, hi⟩ := inv4 U h
  obtain ⟨bin, hb, hs⟩ := libSet_path (inp := .speed m) (answered_path h ha)
  simp only [SetRequest.marshalBinary] at hb
  split at hb
  · cases hb
  · rename_i hm
    cases hb
    obtain ⟨pre, rest, hc⟩ := sent_confirmed hs
    refine ⟨?_, pre, rest, hc, hi.glob.2.conf _ _ pre rest hc⟩
    have := UInt8.not_lt.mp hm
    simpa [UInt8.le_iff_toNat_le] using this

/-- Decides `NoCommand` for single-byte data. -/
def commandsB (cmd : UInt8) (tr : List (Tid × Act)) : Nat :=
  (tr.filter fun x => match x.2 with
    | .wrote bs _ => bs.getD 3 0 == cmd
    | _ => false).length

/-- The hypotheses are met, with other requests in between: `SetFanSpeed(2)` is reported as a
modification, exactly one speed command was written, and the unit runs at speed 2. -/
example : ∃ s, Reachable vent (Sys.initial (ventStart 3)) s ∧
    (commandsB 0x99 s.sh.trace == 1 && s.sh.world.line.speed == 2 &&
      match s.clients.map Client.prog with
      | [.ret (.speed (.ok v)), .ret (.profiles _), .ret (.comfort (.ok _))] =>
        v.modified && v.targetSpeed == 2
      | _ => false) = true := by
  refine exec_witness _ ([.arrive (.setSpeed 2 false), .arrive .getProfiles, .arrive (.setComfort 25)] ++
    steps 3 (.client 0) ++ steps 3 (.client 1) ++ steps 5 (.client 0) ++ steps 20 (.client 2) ++
    steps 27 (.client 0)) (fun _ _ => trivial) _ ?_
  set_option maxRecDepth 4000 in decide

/-! ## C59 -/

/-- **C59** (violated) The caches are right, then somebody turns the comfort temperature up to 25 °C
on the panel of the unit, and then `SetComfortTemp(21)` succeeds without sending anything: the unit
still heats to 25 °C. -/
theorem C59_violated : ∃ s v, Reachable ventOpen (Sys.initial (ventStart 2)) s ∧
    Answered s 0 (.setComfort 21) (.comfort (.ok v)) ∧ v.targetTemp = 21 ∧
    s.sh.world.line.comfort.toNat = (25 + 20) * 2 := by
  have h1 : Reachable ventOpen (Sys.initial (ventStart 2)) _ :=
    Reachable.start.step (.environment { speed := 2, comfort := 90 } 0 ⟨2, 90, false, rfl⟩)
  have h2 := execs_sound (S := ventOpen) (cmds := [.arrive (.setComfort 21)] ++ steps 3 (.client 0))
    (fun _ _ => trivial) h1 rfl
  exact ⟨_, _, h2, rfl, rfl, rfl⟩

/-- **C59** (partial) For every unit that works and whose panel nobody uses, at every moment after
`SetComfortTemp(x)` succeeded: `x` is at most 255;
if it reports a modification, the command for `x` degrees was written and confirmed, and unless
somebody has written such a command since, the unit has stored `x` degrees;
if it reports none, `x` is the value found in the cache (converted to a byte), and nothing was sent.
Missing: in the second case the unit may have stored something else (`C59_violated`). -/
theorem C59_comfort_set_partial {S : Setup σ} (U : SettingUnit 0xD3 S.line S.env) {w : World σ}
    {s : Sys σ} (h : Reachable S (Sys.initial w) s) {i : Nat} {x : UInt32} {v : ComfortModified}
    (ha : Answered s i (.setComfort x) (.comfort (.ok v))) :
    v.targetTemp = x ∧ x.toNat ≤ 255 ∧
      (v.modified = true → ∃ b : UInt8, b.toNat = (x.toNat + 20) * 2 ∧
        ∃ pre rest, Confirmed s.sh.trace (.client i) (frame 0xD3 [b]) pre rest ∧
          (NoCommand 0xD3 rest → U.value s.sh.world.line = [b])) ∧
      (v.modified = false → ∃ (c : Entry Temps) (pre post : List (Tid × Act)),
        s.sh.trace = pre ++ (.client i, .load .temps c) :: post ∧
        (S.cv.u8 c.val.comfort).toNat = x.toNat ∧
        ∀ bs r, (Tid.client i, Act.wrote bs r) ∉ s.sh.trace) := by
  obtain ⟨g, hi⟩ := inv4 U h
  obtain ⟨t, c, rest, hacts, hv⟩ := setComfort_path (answered_path h ha)
  obtain ⟨h1, h2, h3, h4⟩ := hv v rfl
  refine ⟨h2, h1, fun hmod => ?_, fun hmod => ?_⟩
  · obtain ⟨b, hb, hs⟩ := h3 hmod
    have hs' : Sent (frame 0xD3 [b]) (actsOf (.client i) s.sh.trace) := by
      rw [hacts]; simpa using hs.append [_, _] []
    obtain ⟨pre, rest, hc⟩ := sent_confirmed hs'
    exact ⟨b, hb, pre, rest, hc, hi.glob.2.conf _ _ pre rest hc⟩
  · obtain ⟨he, t', hrest⟩ := h4 hmod
    have : actsOf (.client i) s.sh.trace = [.now t] ++ .load .temps c :: rest := hacts
    obtain ⟨pre, post, htr, -, -⟩ := actsOf_split this
    refine ⟨c, pre, post, htr, ?_, fun bs r hmem => ?_⟩
    · rw [he]; simp; omega
    have : Act.wrote bs r ∈ actsOf (.client i) s.sh.trace := by
      simp only [actsOf, List.mem_filterMap]
      exact ⟨_, hmem, by simp⟩
    rw [hacts, hrest] at this
    simp at this

/-- **C59** (partial) The same for `libcomfo.SetComfort`, which always sends the command. -/
theorem C59_library_partial {S : Setup σ} (U : SettingUnit 0xD3 S.line S.env) {w : World σ}
    {s : Sys σ} (h : Reachable S (Sys.initial w) s) {i : Nat} {x : UInt8}
    (ha : Answered s i (.libSetComfort x) (.err none)) :
    ∃ b : UInt8, b.toNat = (x.toNat + 20) * 2 ∧
      ∃ pre rest, Confirmed s.sh.trace (.client i) (frame 0xD3 [b]) pre rest ∧
        (NoCommand 0xD3 rest → U.value s.sh.world.line = [b]) := by
  obtain ⟨g, hi⟩ := inv4 U h
  obtain ⟨bin, hb, hs⟩ := libSet_path (inp := .comfort (x.toNat : Int)) (answered_path h ha)
  simp only [SetRequest.marshalBinary] at hb
  split at hb
  · cases hb
  · rename_i b hb'
    cases hb
    obtain ⟨pre, rest, hc⟩ := sent_confirmed hs
    refine ⟨b, ?_, pre, rest, hc, hi.glob.2.conf _ _ pre rest hc⟩
    unfold temperatureMarshal at hb'
    split at hb'
    · cases hb'
    split at hb'
    · cases hb'
    simp only [Prod.mk.injEq, and_true] at hb'
    rw [← hb']
    simp only [UInt8.toNat_ofNat']
    omega

/-- The hypotheses are met: the unit is broken and repaired, `SetComfortTemp(25)` is reported as a
modification, and the unit has stored 25 °C. -/
example : ∃ s v, Reachable vent (Sys.initial (ventStart 3)) s ∧
    Answered s 0 (.setComfort 25) (.comfort (.ok v)) ∧ v.modified = true ∧
    commandsB 0xD3 s.sh.trace = 1 ∧ s.sh.world.line.comfort = 90 := by
  have h1 : Reachable vent (Sys.initial (ventStart 3)) _ :=
    ((Reachable.start (S := vent)).step (.environment
      { speed := 3, comfort := 82, broken := true } 5 ⟨true, false, rfl⟩)).step
      (.environment { speed := 3, comfort := 82, broken := false } 7 ⟨false, false, rfl⟩)
  have h2 := execs_sound (S := vent) (cmds := [.arrive (.setComfort 25)] ++ steps 20 (.client 0))
    (fun _ _ => trivial) h1 rfl
  exact ⟨_, _, h2, rfl, rfl, rfl, rfl⟩

end Comfo.Props
