import Verif.Spec.Profiles
import Verif.Lemmas.Api
import Verif.Spec.Device
/-!
# Properties C17–C26, C55: the library API
-/
namespace Comfo.Props
open Spec

/-! ## C17 -/

theorem fans_ne_panic (l : List UInt8) : Fans.unmarshalBinary l ≠ .panic := by
  by_cases h : l.length = 6
  · obtain ⟨a, b, c, d, e, f, rfl⟩ := list6 h
    by_cases hz : c.toNat * 256 + d.toNat = 0 ∨ e.toNat * 256 + f.toNat = 0
    · rw [(fans_list a b c d e f).1 hz]; simp
    · obtain ⟨v, hv, -⟩ := (fans_list a b c d e f).2 (fun h => hz (.inl h)) (fun h => hz (.inr h))
      rw [hv]; simp
  · rw [fans_bad h]; simp

theorem bootInfo_list (a b c : UInt8) (name : List UInt8) (h : name.length = 10) :
    BootInfo.unmarshalBinary (a :: b :: c :: name) =
      .ret { majorVersion := a, minorVersion := b, betaVersion := c, deviceName := trimSpace name }
        none := by
  unfold BootInfo.unmarshalBinary
  simp [h, slice, Go.ofOption, List.take_of_length_le (Nat.le_of_eq h)]

theorem errors_list {l : List UInt8} (h : l.length = 17) :
    Errors.unmarshalBinary l = .ret { filter := l[8]? == some 1 } none := by
  unfold Errors.unmarshalBinary
  rw [if_neg (by simp [h])]
  have : l[8]? = some l[8] := List.getElem?_eq_getElem (by omega)
  rw [this]; simp [Go.ofOption]

theorem bootInfo_ne_panic (l : List UInt8) : BootInfo.unmarshalBinary l ≠ .panic := by
  by_cases h : l.length = 13
  · obtain ⟨a, b, c, name, rfl, hn⟩ := list13 h
    rw [bootInfo_list a b c name hn]; simp
  · rw [bootInfo_bad h]; simp

theorem profiles_ne_panic (l : List UInt8) : FanProfiles.unmarshalBinary l ≠ .panic := by
  by_cases h : l.length = 14
  · obtain ⟨a, b, c, d, e, f, g, i, j, k, m, n, o, p, rfl⟩ := list14 h
    rw [profiles_list]; simp
  · rw [profiles_bad h]; simp

theorem temps_ne_panic (l : List UInt8) : Temps.unmarshalBinary l ≠ .panic := by
  by_cases h : l.length = 9
  · obtain ⟨a, b, c, d, e, f, g, i, j, rfl⟩ := list9 h
    simp [Temps.unmarshalBinary, Go.ofOption]
  · rw [temps_bad h]; simp

theorem errors_ne_panic (l : List UInt8) : Errors.unmarshalBinary l ≠ .panic := by
  by_cases h : l.length = 17
  · rw [errors_list h]; simp
  · rw [errors_bad h]; simp

theorem hours_ne_panic (l : List UInt8) : Hours.unmarshalBinary l ≠ .panic := by
  by_cases h : l.length = 20
  · obtain ⟨a, b, c, d, e, f, g, i, j, k, m, n, o, p, q, r, s, t, u, v, rfl⟩ := list20 h
    obtain ⟨x, hx, -⟩ := hours_list a b c d e f g i j k m n o p q r s t u v
    rw [hx]; simp
  · rw [hours_bad h]; simp

theorem bypass_ne_panic (l : List UInt8) : Bypass.unmarshalBinary l ≠ .panic := by
  by_cases h : l.length = 7
  · obtain ⟨a, b, c, d, e, f, g, rfl⟩ := list7 h
    simp [Bypass.unmarshalBinary, Go.ofOption]
  · rw [bypass_bad h]; simp

/-- Helper for C17: the dynamic type always matches. -/
theorem getter_ne_panic {α β : Type} {gr : GetRequest} {zero : α} {assert : Response → Option α}
    (unm : List UInt8 → Go β) (con : β → Response)
    (hd : ∀ pl, decodeResponse { command := gr.code + 1, data := pl } = (unm pl).map (some ∘ con))
    (hu : ∀ pl, unm pl ≠ .panic) (ha : ∀ b, (assert (con b)).isSome) (c : Conn) :
    (getter gr zero assert c).1 ≠ .panic := by
  unfold getter
  match hg : getQuery gr c with
  | (.ret _ (some e), _) => simp
  | (.panic, _) | (.ret none none, _) | (.ret (some r) none, _) =>
    unfold getQuery at hg
    have hp := queryPacket_ne_panic (encodeGetRequest gr) c
    match hq : queryPacket (encodeGetRequest gr) c with
    | (.panic, _) => rw [hq] at hp; simp at hp
    | (.ret _ (some e), _) => rw [hq] at hg; simp at hg
    | (.ret qp none, c2) =>
      rw [hq] at hg
      simp at hg
      obtain ⟨hg, -⟩ := hg
      obtain ⟨h1, -⟩ := query_reply (p := encodeGetRequest gr) rfl (by cases gr <;> decide) hq
      have h1 : qp.command = gr.code + 1 := h1
      have hdd := hd qp.data
      have he : decodeResponse qp = decodeResponse { command := gr.code + 1, data := qp.data } := by
        unfold decodeResponse; rw [h1]
      rw [he, hdd] at hg
      match hu2 : unm qp.data with
      | .panic => exact absurd hu2 (hu _)
      | .ret b e =>
        rw [hu2] at hg
        simp [Go.map] at hg
        try
          obtain ⟨rfl, rfl⟩ := hg
          have := ha b
          match h3 : assert (con b) with
          | none => rw [h3] at this; simp at this
          | some v => simp [h3]

/-- **C17** No getter panics, for every script. -/
theorem C17_getters_never_panic (c : Conn) :
    (getFans c).1 ≠ .panic ∧ (getBootloader c).1 ≠ .panic ∧ (getFirmware c).1 ≠ .panic ∧
    (getFanProfiles c).1 ≠ .panic ∧ (getTemperatures c).1 ≠ .panic ∧ (getErrors c).1 ≠ .panic ∧
    (getHours c).1 ≠ .panic ∧ (getBypass c).1 ≠ .panic := by
  refine ⟨?_, ?_, ?_, ?_, ?_, ?_, ?_, ?_⟩
  · exact getter_ne_panic _ .fans (fun _ => rfl) fans_ne_panic (fun _ => rfl) c
  · exact getter_ne_panic _ .bootInfo (fun _ => rfl) bootInfo_ne_panic (fun _ => rfl) c
  · exact getter_ne_panic _ .bootInfo (fun _ => rfl) bootInfo_ne_panic (fun _ => rfl) c
  · exact getter_ne_panic _ .fanProfiles (fun _ => rfl) profiles_ne_panic (fun _ => rfl) c
  · exact getter_ne_panic _ .temps (fun _ => rfl) temps_ne_panic (fun _ => rfl) c
  · exact getter_ne_panic _ .errors (fun _ => rfl) errors_ne_panic (fun _ => rfl) c
  · exact getter_ne_panic _ .hours (fun _ => rfl) hours_ne_panic (fun _ => rfl) c
  · exact getter_ne_panic _ .bypass (fun _ => rfl) bypass_ne_panic (fun _ => rfl) c

/-- Non-vacuity of C17: replies that reach the slicing and the type assertion. -/
example : (getHours { rd := [.data (ack ++ frame 0xDE
      [1, 2, 3, 0, 0, 4, 0, 0, 5, 0, 6, 0, 8, 0, 9, 0, 10, 0, 1, 0])] }).1 =
    .ret { fanAway := 66051, fanLow := 4, fanMid := 5, fanHigh := 256, frostProtect := 6,
           reheating := 8, bypassOpen := 9, filter := 10 } none := by decide
example : (getFans { rd := [.data (ack ++ frame 0x0C [50, 50, 0, 0, 1, 0])] }).1 =
    .ret {} (some .zeroValue) := by decide

/-! ## C18 -/

theorem temperature_degrees (b : UInt8) : temperatureUnmarshal b = degrees b := by
  unfold temperatureUnmarshal degrees
  rw [UInt8.toNat_div]; simp

/-- **C18** Temperature readings. -/
theorem C18_temperatures :
    (∀ c v c', getTemperatures c = (.ret v none, c') →
      ∃ b0 b1 b2 b3 b4 b5 b6 b7 b8,
        ReplyIn (delivered c.rd) 0xD2 [b0, b1, b2, b3, b4, b5, b6, b7, b8] ∧
        v.comfort = degrees b0 ∧ v.outsideAir = degrees b1 ∧ v.supplyAir = degrees b2 ∧
        v.insideAir = degrees b3 ∧ v.exhaustAir = degrees b4 ∧ v.geoHeat = degrees b6 ∧
        v.reheating = degrees b7 ∧ v.kitchenHood = degrees b8) ∧
    (∀ b0 b1 b2 b3 b4 b5 b6 b7 b8, ∃ v,
      Temps.unmarshalBinary [b0, b1, b2, b3, b4, b5, b6, b7, b8] = .ret v none) ∧
    (∀ l, l.length ≠ 9 → Temps.unmarshalBinary l = .ret {} (some .pktLen)) ∧
    (∀ b, -20 ≤ degrees b ∧ degrees b ≤ 107 ∧
      2 * degrees b ≤ (b.toNat : Int) - 40 ∧ (b.toNat : Int) - 40 < 2 * degrees b + 2) := by
  refine ⟨?_, fun _ _ _ _ _ _ _ _ _ => ⟨_, rfl⟩, fun l h => temps_bad h, ?_⟩
  · intro c v c' h
    obtain ⟨pl, hr, hu⟩ := (C14_get_only_with_reply c c').2.2.2.2.1 v h
    by_cases hl : pl.length = 9
    · obtain ⟨b0, b1, b2, b3, b4, b5, b6, b7, b8, rfl⟩ := list9 hl
      refine ⟨b0, b1, b2, b3, b4, b5, b6, b7, b8, hr, ?_⟩
      simp only [← temperature_degrees]
      simp [Temps.unmarshalBinary, Go.ofOption] at hu
      rw [← hu]; simp
    · rw [temps_bad hl] at hu; simp at hu
  · intro b
    have := b.toNat_lt
    unfold degrees; omega

/-- Non-vacuity of C18: see the example after C14. -/
example : degrees 0 = -20 ∧ degrees 83 = 21 ∧ degrees 255 = 107 := by decide

/-! ## C19, C20 -/

/-- **C19** Comfort temperature: range, wire byte, round-trip. -/
theorem C19_comfort (v : UInt8) (c : Conn) :
    (107 < v.toNat → setComfort v c = (.ret () (some .tooHigh), c)) ∧
    (v.toNat ≤ 107 → ∃ b : UInt8, b.toNat = (v.toNat + 20) * 2 ∧ degrees b = v.toNat ∧
      (∃ x y, (setComfort v c).2.sent = c.sent ++ x ++ y ∧ x <+: frame 0xD3 [b] ∧ y <+: ack) ∧
      (∀ c', setComfort v c = (.ret () none, c') → HonestWriter c →
        c'.sent = c.sent ++ frame 0xD3 [b] ++ ack) ∧
      (setComfort v c).1 ≠ .panic) := by
  constructor
  · intro h
    apply setQuery_err (bin := [])
    simp [SetRequest.marshalBinary, temperatureMarshal]
    rw [if_pos (by omega)]
  · intro h
    refine ⟨UInt8.ofNat ((v.toNat + 20) * 2), ?_, ?_, ?_⟩
    · simp; omega
    · unfold degrees; simp; omega
    · have hm : (SetRequest.comfort (v.toNat : Int)).marshalBinary =
          ([UInt8.ofNat ((v.toNat + 20) * 2)], none) := by
        simp only [SetRequest.marshalBinary, temperatureMarshal]
        rw [if_neg (by omega), if_neg (by omega)]
        simp only [Prod.mk.injEq, and_true, List.cons.injEq]
        congr 1
      exact setQuery_wire hm (by simp) c

/-- Non-vacuity of C19. -/
example : setComfort 21 { rd := [.data ack] } =
    (.ret () none, { rd := [], sent := frame 0xD3 [82] ++ ack }) := by decide
example : setComfort 108 { rd := [.data ack] } = (.ret () (some .tooHigh), { rd := [.data ack] }) := by
  decide

/-- **C19** The temperature type is refused outside its range, and otherwise reads what it has written. -/
theorem C19_marshal (t : Int) :
    (107 < t → (temperatureMarshal t).2 = some .tooHigh) ∧
    (t < -20 → (temperatureMarshal t).2 = some .tooLow) ∧
    (-20 ≤ t → t ≤ 107 → ∃ b, temperatureMarshal t = (b, none) ∧ (b.toNat : Int) = (t + 20) * 2 ∧
      temperatureUnmarshal b = t) := by
  refine ⟨fun h => ?_, fun h => ?_, fun h1 h2 => ?_⟩
  · rw [temperatureMarshal, if_pos (by omega)]
  · rw [temperatureMarshal, if_neg (by omega), if_pos (by omega)]
  · have hb : ((UInt8.ofNat ((t + 20) * 2).toNat).toNat : Int) = (t + 20) * 2 := by
      rw [UInt8.toNat_ofNat']
      omega
    refine ⟨UInt8.ofNat ((t + 20) * 2).toNat, ?_, hb, ?_⟩
    · rw [temperatureMarshal, if_neg (by omega), if_neg (by omega)]
    · rw [temperatureUnmarshal, UInt8.toNat_div]
      simp only [UInt8.reduceToNat]
      omega

/-- Non-vacuity of C19: the lowest temperature, and one below it. -/
example : temperatureMarshal (-20) = (0, none) ∧ temperatureMarshal (-21) = (0, some .tooLow) := by decide

/-- **C20** Fan speed command range and wire effect. -/
theorem C20_speed (v : UInt8) (c : Conn) :
    (4 < v.toNat → setSpeed v c = (.ret () (some .tooHigh), c)) ∧
    (v.toNat ≤ 4 →
      (∃ x y, (setSpeed v c).2.sent = c.sent ++ x ++ y ∧ x <+: frame 0x99 [v] ∧ y <+: ack) ∧
      (∀ c', setSpeed v c = (.ret () none, c') → HonestWriter c →
        c'.sent = c.sent ++ frame 0x99 [v] ++ ack) ∧
      (setSpeed v c).1 ≠ .panic) := by
  have hv : v > 4 ↔ 4 < v.toNat := by rw [gt_iff_lt, UInt8.lt_iff_toNat_lt]; simp
  constructor
  · intro h
    apply setQuery_err (bin := [])
    simp only [SetRequest.marshalBinary]
    rw [if_pos (hv.2 h)]
  · intro h
    apply setQuery_wire (s := .speed v)
    · simp only [SetRequest.marshalBinary]
      rw [if_neg (fun h' => by have := hv.1 h'; omega)]
    · simp

/-- Non-vacuity of C20. -/
example : setSpeed 4 { rd := [.data ack] } =
    (.ret () none, { rd := [], sent := frame 0x99 [4] ++ ack }) := by decide
example : setSpeed 5 { rd := [.data ack] } = (.ret () (some .tooHigh), { rd := [.data ack] }) := by
  decide

/-! ## C21 -/

/-- **C21**, negation: a period of 28 units is 66964 rpm, reported as 1428 rpm. -/
theorem C21_rpm_violated :
    ¬ ∀ (c c' : Conn) (v : Fans) (a b p0 p1 q0 q1 : UInt8),
      getFans c = (.ret v none, c') →
      delivered c.rd = ack ++ frame 0x0C [a, b, p0, p1, q0, q1] →
      v.inSpeed.toNat = 1875000 / (p0.toNat * 256 + p1.toNat) := by
  intro h
  have := h { rd := [.data (ack ++ frame 0x0C [50, 50, 0, 28, 1, 0])] }
    { rd := [], sent := frame 0x0B [] ++ ack }
    { inPercent := 50, outPercent := 50, inSpeed := 1428, outSpeed := 7324 } 50 50 0 28 1 0
    (by decide) (by decide)
  revert this; decide

/-- **C21**, the true part: exact for periods of 29 and more, error for a zero period. *Missing
from the full property:* periods 1 to 28, where the result is the quotient modulo 65536. -/
theorem C21_rpm_partial :
    (∀ c v c', getFans c = (.ret v none, c') →
      ∃ a b p0 p1 q0 q1, ReplyIn (delivered c.rd) 0x0C [a, b, p0, p1, q0, q1] ∧
        v.inPercent = a ∧ v.outPercent = b ∧
        bigEndian [p0, p1] ≠ 0 ∧ bigEndian [q0, q1] ≠ 0 ∧
        v.inSpeed.toNat = 1875000 / bigEndian [p0, p1] % 65536 ∧
        v.outSpeed.toNat = 1875000 / bigEndian [q0, q1] % 65536 ∧
        (29 ≤ bigEndian [p0, p1] → v.inSpeed.toNat = 1875000 / bigEndian [p0, p1]) ∧
        (29 ≤ bigEndian [q0, q1] → v.outSpeed.toNat = 1875000 / bigEndian [q0, q1])) ∧
    (∀ a b p0 p1 q0 q1, bigEndian [p0, p1] = 0 ∨ bigEndian [q0, q1] = 0 →
      Fans.unmarshalBinary [a, b, p0, p1, q0, q1] = .ret {} (some .zeroValue)) ∧
    (∀ a b p0 p1 q0 q1, bigEndian [p0, p1] ≠ 0 → bigEndian [q0, q1] ≠ 0 →
      ∃ v, Fans.unmarshalBinary [a, b, p0, p1, q0, q1] = .ret v none) ∧
    (∀ l, l.length ≠ 6 → Fans.unmarshalBinary l = .ret {} (some .pktLen)) := by
  have be : ∀ a b : UInt8, bigEndian [a, b] = a.toNat * 256 + b.toNat := by
    intro a b; simp [bigEndian]
  have small : ∀ w, 29 ≤ w → 1875000 / w % 65536 = 1875000 / w := by
    intro w hw
    apply Nat.mod_eq_of_lt
    rw [Nat.div_lt_iff_lt_mul (by omega)]; omega
  refine ⟨?_, ?_, ?_, fun l h => fans_bad h⟩
  · intro c v c' h
    obtain ⟨pl, hr, hu⟩ := (C14_get_only_with_reply c c').1 v h
    by_cases hl : pl.length = 6
    · obtain ⟨a, b, p0, p1, q0, q1, rfl⟩ := list6 hl
      refine ⟨a, b, p0, p1, q0, q1, hr, ?_⟩
      rw [be, be]
      by_cases hz : p0.toNat * 256 + p1.toNat = 0 ∨ q0.toNat * 256 + q1.toNat = 0
      · rw [(fans_list a b p0 p1 q0 q1).1 hz] at hu; simp at hu
      · have z1 := fun h => hz (.inl h)
        have z2 := fun h => hz (.inr h)
        obtain ⟨v', hv, e1, e2, e3, e4⟩ := (fans_list a b p0 p1 q0 q1).2 z1 z2
        rw [hv] at hu
        simp at hu; subst hu
        exact ⟨e1, e2, z1, z2, e3, e4, fun h => by rw [e3, small _ h], fun h => by rw [e4, small _ h]⟩
    · rw [fans_bad hl] at hu; simp at hu
  · intro a b p0 p1 q0 q1 h
    rw [be, be] at h
    exact (fans_list a b p0 p1 q0 q1).1 h
  · intro a b p0 p1 q0 q1 h1 h2
    rw [be] at h1 h2
    obtain ⟨v, hv, -⟩ := (fans_list a b p0 p1 q0 q1).2 h1 h2
    exact ⟨v, hv⟩

/-- Non-vacuity of C21. -/
example : (getFans { rd := [.data (ack ++ frame 0x0C [50, 51, 4, 87, 0, 29])] }).1 =
    .ret { inPercent := 50, outPercent := 51, inSpeed := 1687, outSpeed := 64655 } none := by decide

/-! ## C22 -/

/-- **C22** Operating hours. -/
theorem C22_hours :
    (∀ c v c', getHours c = (.ret v none, c') →
      ∃ a b c1 d e f g i j k m n o p q r s t u w,
        ReplyIn (delivered c.rd) 0xDE [a, b, c1, d, e, f, g, i, j, k, m, n, o, p, q, r, s, t, u, w] ∧
        v.fanAway.toNat = bigEndian [a, b, c1] ∧ v.fanLow.toNat = bigEndian [d, e, f] ∧
        v.fanMid.toNat = bigEndian [g, i, j] ∧ v.frostProtect.toNat = bigEndian [k, m] ∧
        v.reheating.toNat = bigEndian [n, o] ∧ v.bypassOpen.toNat = bigEndian [p, q] ∧
        v.filter.toNat = bigEndian [r, s] ∧ v.fanHigh.toNat = bigEndian [t, u, w]) ∧
    (∀ l, l.length = 20 → ∃ v, Hours.unmarshalBinary l = .ret v none) ∧
    (∀ l, l.length ≠ 20 → Hours.unmarshalBinary l = .ret {} (some .pktLen)) := by
  refine ⟨?_, ?_, fun l h => hours_bad h⟩
  · intro c v c' h
    obtain ⟨pl, hr, hu⟩ := (C14_get_only_with_reply c c').2.2.2.2.2.2.2 v h
    by_cases hl : pl.length = 20
    · obtain ⟨a, b, c1, d, e, f, g, i, j, k, m, n, o, p, q, r, s, t, u, w, rfl⟩ := list20 hl
      refine ⟨a, b, c1, d, e, f, g, i, j, k, m, n, o, p, q, r, s, t, u, w, hr, ?_⟩
      obtain ⟨x, hx, hxs⟩ := hours_list a b c1 d e f g i j k m n o p q r s t u w
      rw [hx] at hu; simp at hu; subst hu
      simpa [bigEndian] using hxs
    · rw [hours_bad hl] at hu; simp at hu
  · intro l h
    obtain ⟨a, b, c, d, e, f, g, i, j, k, m, n, o, p, q, r, s, t, u, v, rfl⟩ := list20 h
    obtain ⟨x, hx, -⟩ := hours_list a b c d e f g i j k m n o p q r s t u v
    exact ⟨x, hx⟩

/-! Non-vacuity of C22: the first example after C17. -/

/-! ## C23 -/

/-- What C23 claims about one reply. -/
def TrimmedName (v : BootInfo) (maj min beta : UInt8) (name : List UInt8) : Prop :=
  v.majorVersion = maj ∧ v.minorVersion = min ∧ v.betaVersion = beta ∧
  ∃ pre post, name = pre ++ v.deviceName ++ post ∧ AllSpace pre ∧ AllSpace post ∧
    ∀ e ∈ spaceEncodings, ¬ e <+: v.deviceName ∧ ¬ e <:+ v.deviceName

/-- **C23** Versions and trimmed device name. -/
theorem C23_device_name :
    (∀ c v c', getBootloader c = (.ret v none, c') →
      ∃ maj min beta name, name.length = 10 ∧
        ReplyIn (delivered c.rd) 0x68 (maj :: min :: beta :: name) ∧ TrimmedName v maj min beta name) ∧
    (∀ c v c', getFirmware c = (.ret v none, c') →
      ∃ maj min beta name, name.length = 10 ∧
        ReplyIn (delivered c.rd) 0x6A (maj :: min :: beta :: name) ∧ TrimmedName v maj min beta name) ∧
    (∀ l, l.length = 13 → ∃ v, BootInfo.unmarshalBinary l = .ret v none) ∧
    (∀ l, l.length ≠ 13 → BootInfo.unmarshalBinary l = .ret {} (some .pktLen)) := by
  have core : ∀ pl v, BootInfo.unmarshalBinary pl = .ret v none →
      ∃ maj min beta name, name.length = 10 ∧ pl = maj :: min :: beta :: name ∧
        TrimmedName v maj min beta name := by
    intro pl v hu
    by_cases hl : pl.length = 13
    · obtain ⟨a, b, c, name, rfl, hn⟩ := list13 hl
      rw [bootInfo_list a b c name hn] at hu
      simp at hu; subst hu
      refine ⟨a, b, c, name, hn, rfl, rfl, rfl, rfl, ?_⟩
      exact trimSpace_spec name
    · rw [bootInfo_bad hl] at hu; simp at hu
  refine ⟨?_, ?_, ?_, fun l h => bootInfo_bad h⟩
  · intro c v c' h
    obtain ⟨pl, hr, hu⟩ := (C14_get_only_with_reply c c').2.1 v h
    obtain ⟨a, b, d, name, hn, rfl, ht⟩ := core pl v hu
    exact ⟨a, b, d, name, hn, hr, ht⟩
  · intro c v c' h
    obtain ⟨pl, hr, hu⟩ := (C14_get_only_with_reply c c').2.2.1 v h
    obtain ⟨a, b, d, name, hn, rfl, ht⟩ := core pl v hu
    exact ⟨a, b, d, name, hn, hr, ht⟩
  · intro l h
    obtain ⟨a, b, c, name, rfl, hn⟩ := list13 h
    exact ⟨_, bootInfo_list a b c name hn⟩

/-- Non-vacuity of C23: a name with a no-break space in front and blanks behind. -/
example : (getBootloader { rd := [.data (ack ++ frame 0x68
      [3, 60, 32, 0xC2, 0xA0, 67, 65, 32, 51, 53, 48, 32, 32])] }).1 =
    .ret { majorVersion := 3, minorVersion := 60, betaVersion := 32,
           deviceName := [67, 65, 32, 51, 53, 48] } none := by decide

/-! ## C24 -/

/-- **C24** Layout of fan profiles: what is set is what a unit that stores it reports back; the
layout of a reply; `Lookup`. -/
theorem C24_profiles :
    (∀ (q : FanProfiles) (old : List UInt8) (c : Conn), old.length = 14 → ∃ bin, bin.length = 8 ∧
      (∃ x y, (setFanProfiles (some q) c).2.sent = c.sent ++ x ++ y ∧ x <+: frame 0xCF bin ∧
        y <+: ack) ∧
      (∀ c', setFanProfiles (some q) c = (.ret () none, c') → HonestWriter c →
        c'.sent = c.sent ++ frame 0xCF bin ++ ack) ∧
      ∃ v, FanProfiles.unmarshalBinary (storeProfiles bin old) = .ret v none ∧
        v.inAway = q.inAway ∧ v.inLow = q.inLow ∧ v.inMid = q.inMid ∧ v.inHigh = q.inHigh ∧
        v.outAway = q.outAway ∧ v.outLow = q.outLow ∧ v.outMid = q.outMid ∧ v.outHigh = q.outHigh) ∧
    (∀ c v c', getFanProfiles c = (.ret v none, c') →
      ∃ a b c1 d e f g i j k m n o p,
        ReplyIn (delivered c.rd) 0xCE [a, b, c1, d, e, f, g, i, j, k, m, n, o, p] ∧
        v.outAway = a ∧ v.outLow = b ∧ v.outMid = c1 ∧ v.inAway = d ∧ v.inLow = e ∧ v.inMid = f ∧
        v.currentOut = g ∧ v.currentIn = i ∧ v.currentMode = j ∧ (v.inFanActive = true ↔ k = 1) ∧
        v.outHigh = m ∧ v.inHigh = n) ∧
    (∀ l, l.length ≠ 14 → FanProfiles.unmarshalBinary l = .ret {} (some .pktLen)) ∧
    (∀ q : FanProfiles, q.lookup 1 = ((q.inAway, q.outAway), none) ∧
      q.lookup 2 = ((q.inLow, q.outLow), none) ∧ q.lookup 3 = ((q.inMid, q.outMid), none) ∧
      q.lookup 4 = ((q.inHigh, q.outHigh), none) ∧
      ∀ s, s ∉ [1, 2, 3, 4] → q.lookup s = ((0, 0), some .notExist)) := by
  refine ⟨?_, ?_, fun l h => profiles_bad h, ?_⟩
  · intro q old c ho
    obtain ⟨hw, hs, -⟩ := setQuery_wire (s := .fanProfiles q) rfl (by simp) c
    refine ⟨[q.outAway, q.outLow, q.outMid, q.inAway, q.inLow, q.inMid, q.outHigh, q.inHigh], rfl,
      hw, hs, ?_⟩
    obtain ⟨a, b, c, d, e, f, g, i, j, k, m, n, o, p, rfl⟩ := list14 ho
    exact ⟨_, profiles_list _ _ _ _ _ _ _ _ _ _ _ _ _ _, rfl, rfl, rfl, rfl, rfl, rfl, rfl, rfl⟩
  · intro c v c' h
    obtain ⟨pl, hr, hu⟩ := (C14_get_only_with_reply c c').2.2.2.1 v h
    by_cases hl : pl.length = 14
    · obtain ⟨a, b, c1, d, e, f, g, i, j, k, m, n, o, p, rfl⟩ := list14 hl
      refine ⟨a, b, c1, d, e, f, g, i, j, k, m, n, o, p, hr, ?_⟩
      rw [profiles_list] at hu
      simp at hu; subst hu
      simp
    · rw [profiles_bad hl] at hu; simp at hu
  · intro q
    refine ⟨rfl, rfl, rfl, rfl, ?_⟩
    intro s hs
    simp at hs
    simp [FanProfiles.lookup, hs]

/-- Non-vacuity of C24. -/
example : setFanProfiles
      (some { outAway := 1, outLow := 2, outMid := 3, outHigh := 4, inAway := 5, inLow := 6,
              inMid := 9, inHigh := 8 }) { rd := [.data ack] } =
    (.ret () none, { rd := [], sent := frame 0xCF [1, 2, 3, 5, 6, 9, 4, 8] ++ ack }) := by decide
example : (getFanProfiles { rd := [.data (ack ++ frame 0xCE
      [1, 2, 3, 5, 6, 7, 30, 31, 2, 1, 4, 8, 0, 0])] }).1 =
    .ret { outAway := 1, outLow := 2, outMid := 3, outHigh := 4, inFanActive := true, inAway := 5,
           inLow := 6, inMid := 7, inHigh := 8, currentOut := 30, currentIn := 31,
           currentMode := 2 } none := by decide

/-- A nil pointer panics (`SetFanProfiles(nil, conn)`), before any I/O. -/
theorem C24_nil_panics (c : Conn) : setFanProfiles none c = (.panic, c) := rfl

/-! ## C25 -/

theorem getter_wr {α : Type} {gr : GetRequest} {zero v : α} {assert : Response → Option α}
    {c c' : Conn} {e : Option Err} (h : getter gr zero assert c = (.ret v e, c')) :
    c' = (queryPacket (encodeGetRequest gr) c).2 ∧
    (e = none → ∃ q, (queryPacket (encodeGetRequest gr) c).1 = .ret q none) := by
  unfold getter getQuery at h
  match hq : queryPacket (encodeGetRequest gr) c with
  | (.panic, c2) => rw [hq] at h; simp at h
  | (.ret _ (some e), c2) =>
    rw [hq] at h; simp at h
    refine ⟨h.2.symm, fun hn => ?_⟩
    rw [hn] at h; simp at h
  | (.ret qp none, c2) =>
    rw [hq] at h
    simp only at h
    refine ⟨?_, fun _ => ⟨qp, rfl⟩⟩
    split at h
    · simp at h
    · next heq => simp at h heq; rw [← h.2, ← heq.2]
    · simp at h
    · next heq =>
      simp only [Prod.mk.injEq] at heq
      split at h
      · simp at h; rw [← h.2, ← heq.2]
      · simp at h

theorem queryPacket_wr (p : Packet) (c : Conn) : ∃ k, (queryPacket p c).2.wr = c.wr.drop k := by
  by_cases h : p.data.length ≤ 255
  · obtain ⟨n, -, -, hf, hr⟩ := queryPacket_phases p c h
    by_cases hk : ∃ k, c.wr.head? = some (.fail k)
    · obtain ⟨k, hk⟩ := hk
      rw [(hf k hk).2]; exact ⟨1, by simp [Conn.wrote]⟩
    · obtain ⟨q, e, c2, -, -, hw, a, b, d⟩ := hr (fun k hk' => hk ⟨k, hk'⟩)
      cases e with
      | some e => rw [a e rfl]; exact ⟨1, by simp [hw]⟩
      | none =>
        by_cases hc : p.expect = true → q.command = p.command + 1
        · rw [d rfl hc]
          obtain ⟨e, m, ha, -⟩ := writeAck_spec c2
          rw [ha]
          exact ⟨2, by simp [Conn.wrote, hw, ← List.drop_one, List.drop_drop]⟩
        · by_cases he : p.expect = true
          · rw [b rfl he (fun h => hc (fun _ => h))]; exact ⟨1, by simp [hw]⟩
          · exact absurd (fun h => absurd h he) hc
  · unfold queryPacket
    rw [(writePacket_spec p c).1 (by omega)]; exact ⟨0, by simp⟩

/-- **C25** `SetFanProfile` is a precise read-modify-write. -/
theorem C25_set_fan_profile (mode speed : UInt8) (c : Conn) :
    (3 < mode.toNat → setFanProfile mode speed c = (.ret () (some .unknownMode), c)) ∧
    (mode.toNat ≤ 3 → 100 < speed.toNat → setFanProfile mode speed c = (.ret () (some .tooHigh), c)) ∧
    (mode.toNat ≤ 3 → speed.toNat ≤ 100 →
      (setFanProfile mode speed c).1 ≠ .panic ∧
      (∀ v e c1, getFanProfiles c = (.ret v (some e), c1) →
        setFanProfile mode speed c = (.ret () (some e), c1) ∧
        ∃ x y, c1.sent = c.sent ++ x ++ y ∧ x <+: frame 0xCD [] ∧ y <+: ack) ∧
      (∀ v c1, getFanProfiles c = (.ret v none, c1) →
        (∃ x y, (setFanProfile mode speed c).2.sent = c1.sent ++ x ++ y ∧
          x <+: frame 0xCF (replaceMode mode.toNat speed (percentages v)) ∧ y <+: ack) ∧
        (∀ c', setFanProfile mode speed c = (.ret () none, c') → HonestWriter c →
          c'.sent = c.sent ++ frame 0xCD [] ++ ack ++
            frame 0xCF (replaceMode mode.toNat speed (percentages v)) ++ ack))) := by
  have hm : mode > 3 ↔ 3 < mode.toNat := by rw [gt_iff_lt, UInt8.lt_iff_toNat_lt]; simp
  have hs : speed > 100 ↔ 100 < speed.toNat := by rw [gt_iff_lt, UInt8.lt_iff_toNat_lt]; simp
  refine ⟨?_, ?_, ?_⟩
  · intro h; unfold setFanProfile; rw [if_pos (hm.2 h)]
  · intro h1 h2; unfold setFanProfile
    rw [if_neg (fun h => by have := hm.1 h; omega), if_pos (hs.2 h2)]
  · intro h1 h2
    have heq : setFanProfile mode speed c = match getFanProfiles c with
        | (.panic, c) => (.panic, c)
        | (.ret _ (some e), c) => (.ret () (some e), c)
        | (.ret cfp none, c) => setQuery (.fanProfiles (patchProfile mode speed cfp)) c := by
      unfold setFanProfile
      rw [if_neg (fun h => by have := hm.1 h; omega), if_neg (fun h => by have := hs.1 h; omega)]
      rfl
    have wire := C15_wire_output (encodeGetRequest .fanProfiles) c
    refine ⟨?_, ?_, ?_⟩
    · rw [heq]
      have hp := (C17_getters_never_panic c).2.2.2.1
      match hg : getFanProfiles c with
      | (.panic, _) => rw [hg] at hp; simp at hp
      | (.ret _ (some e), _) => simp
      | (.ret cfp none, c1) =>
        exact (setQuery_wire (s := .fanProfiles (patchProfile mode speed cfp)) rfl (by simp) c1).2.2
    · intro v e c1 hg
      rw [heq, hg]
      refine ⟨rfl, ?_⟩
      obtain ⟨hc1, -⟩ := getter_wr hg
      obtain ⟨x, y, h1, h2, h3, -⟩ := wire.2.1 (by simp [encodeGetRequest])
      exact ⟨x, y, by rw [hc1]; exact h1, h2, h3⟩
    · intro v c1 hg
      have hbin : (SetRequest.fanProfiles (patchProfile mode speed v)).marshalBinary =
          (replaceMode mode.toNat speed (percentages v), none) := by
        have : mode = 0 ∨ mode = 1 ∨ mode = 2 ∨ mode = 3 := by
          have h : mode.toNat = 0 ∨ mode.toNat = 1 ∨ mode.toNat = 2 ∨ mode.toNat = 3 := by omega
          rcases h with h | h | h | h
          · exact .inl (UInt8.toNat.inj h)
          · exact .inr (.inl (UInt8.toNat.inj h))
          · exact .inr (.inr (.inl (UInt8.toNat.inj h)))
          · exact .inr (.inr (.inr (UInt8.toNat.inj h)))
        rcases this with rfl | rfl | rfl | rfl <;> rfl
      have hlen : (replaceMode mode.toNat speed (percentages v)).length ≤ 255 := by
        unfold replaceMode percentages
        split <;> simp
      obtain ⟨hw, hok, -⟩ := setQuery_wire hbin hlen c1
      rw [heq, hg]
      refine ⟨hw, ?_⟩
      intro c' h hh
      obtain ⟨hc1, hq⟩ := getter_wr hg
      obtain ⟨q, hq⟩ := hq rfl
      have hh1 : HonestWriter c1 := by
        obtain ⟨k, hk⟩ := queryPacket_wr (encodeGetRequest .fanProfiles) c
        intro n hn
        rw [hc1, hk] at hn
        exact hh n (List.mem_of_mem_drop hn)
      have := hok c' h hh1
      obtain ⟨a, ha, -, hb⟩ := wire.2.2 q c1 (by rw [hc1]; exact Prod.ext hq rfl)
      rw [this, ha, hb hh]
      rfl

/-- Non-vacuity of C25: one successful read-modify-write, one failing read. -/
example : (setFanProfile 3 77 { rd := [.data (ack ++ frame 0xCE
      [1, 2, 3, 5, 6, 9, 30, 31, 2, 1, 4, 8, 0, 0]), .data ack] }) =
    (.ret () none,
      { rd := [],
        sent := frame 0xCD [] ++ ack ++ frame 0xCF [1, 2, 3, 5, 6, 9, 77, 77] ++ ack }) := by decide
example : (setFanProfile 3 77 { rd := [] }).1 = .ret () (some .timeout) ∧
    (setFanProfile 3 77 { rd := [] }).2.sent = frame 0xCD [] := by decide

/-! ## C26 -/

/-- **C26** Bypass and error flags. -/
theorem C26_flags :
    (∀ c v c', getBypass c = (.ret v none, c') →
      ∃ b0 b1 b2 b3 b4 b5 b6, ReplyIn (delivered c.rd) 0xE0 [b0, b1, b2, b3, b4, b5, b6] ∧
        v.factor = b2 ∧ v.level = b3 ∧ v.correction = b4 ∧ (v.summerMode = true ↔ b6 = 1)) ∧
    (∀ l, l.length = 7 → ∃ v, Bypass.unmarshalBinary l = .ret v none) ∧
    (∀ l, l.length ≠ 7 → Bypass.unmarshalBinary l = .ret {} (some .pktLen)) ∧
    (∀ c v c', getErrors c = (.ret v none, c') →
      ∃ pl, pl.length = 17 ∧ ReplyIn (delivered c.rd) 0xDA pl ∧
        (v.filter = true ↔ pl[8]? = some 1)) ∧
    (∀ l, l.length = 17 → ∃ v, Errors.unmarshalBinary l = .ret v none) ∧
    (∀ l, l.length ≠ 17 → Errors.unmarshalBinary l = .ret {} (some .pktLen)) := by
  refine ⟨?_, ?_, fun l h => bypass_bad h, ?_, ?_, fun l h => errors_bad h⟩
  · intro c v c' h
    obtain ⟨pl, hr, hu⟩ := (C14_get_only_with_reply c c').2.2.2.2.2.2.1 v h
    by_cases hl : pl.length = 7
    · obtain ⟨b0, b1, b2, b3, b4, b5, b6, rfl⟩ := list7 hl
      refine ⟨b0, b1, b2, b3, b4, b5, b6, hr, ?_⟩
      simp [Bypass.unmarshalBinary, Go.ofOption] at hu
      subst hu; simp
    · rw [bypass_bad hl] at hu; simp at hu
  · intro l h
    obtain ⟨b0, b1, b2, b3, b4, b5, b6, rfl⟩ := list7 h
    exact ⟨_, rfl⟩
  · intro c v c' h
    obtain ⟨pl, hr, hu⟩ := (C14_get_only_with_reply c c').2.2.2.2.2.1 v h
    by_cases hl : pl.length = 17
    · refine ⟨pl, hl, hr, ?_⟩
      rw [errors_list hl] at hu
      simp at hu; subst hu; simp
    · rw [errors_bad hl] at hu; simp at hu
  · intro l h; exact ⟨_, errors_list h⟩

/-- Non-vacuity of C26. -/
example : (getBypass { rd := [.data (ack ++ frame 0xE0 [0, 0, 11, 12, 13, 0, 1])] }).1 =
    .ret { factor := 11, level := 12, correction := 13, summerMode := true } none := by decide
example : (getErrors { rd := [.data (ack ++ frame 0xDA
      [0, 0, 0, 0, 0, 0, 0, 0, 1, 0, 0, 0, 0, 0, 0, 0, 0])] }).1 = .ret { filter := true } none := by
  decide

/-! ## C55 -/

/-- Helper for C55. -/
theorem getter_reply {α β : Type} {gr : GetRequest} {zero : α} {assert : Response → Option α}
    (unm : List UInt8 → Go β) (con : β → Response) (proj : β → α)
    (hd : ∀ pl, decodeResponse { command := gr.code + 1, data := pl } = (unm pl).map (some ∘ con))
    (ha : ∀ b, assert (con b) = some (proj b)) (pl trailing : List UInt8) (hp : pl.length ≤ 255)
    (c : Conn) (hne : NoEmptyReads c.rd) (hl : ∀ b ∈ c.late, b = false) (hw : c.wr = [])
    (hdel : delivered c.rd = ack ++ frame (gr.code + 1) pl ++ trailing)
    (hnd : NoDelim ((gr.code + 1) :: UInt8.ofNat pl.length :: (pl ++ [checksum (gr.code + 1) pl])))
    (v : β) (hu : unm pl = .ret v none) :
    (getter gr zero assert c).1 = .ret (proj v) none := by
  have := getQuery_reply gr pl trailing hp c hne hl hw hdel hnd
  rw [hd, hu] at this
  unfold getter
  match hg : getQuery gr c with
  | (r, c2) =>
    rw [hg] at this
    simp [Go.map] at this
    subst this
    simp [ha]

/-- A cooperative unit: it acknowledges and answers with one frame, in any chunks, no timer fires
early, writes succeed, and the frame has no delimiter inside (see C09 for why that matters). -/
def Answers (c : Conn) (cmd : UInt8) (pl trailing : List UInt8) : Prop :=
  NoEmptyReads c.rd ∧ (∀ b ∈ c.late, b = false) ∧ c.wr = [] ∧
  delivered c.rd = ack ++ frame cmd pl ++ trailing ∧
  NoDelim (cmd :: UInt8.ofNat pl.length :: (pl ++ [checksum cmd pl]))

/-- **C55** A reply that decodes is returned (the converse of C14). -/
theorem C55_reply_is_returned (c : Conn) (pl trailing : List UInt8) (hp : pl.length ≤ 255) :
    (∀ v, Answers c 0x0C pl trailing → Fans.unmarshalBinary pl = .ret v none →
      (getFans c).1 = .ret v none) ∧
    (∀ v, Answers c 0x68 pl trailing → BootInfo.unmarshalBinary pl = .ret v none →
      (getBootloader c).1 = .ret v none) ∧
    (∀ v, Answers c 0x6A pl trailing → BootInfo.unmarshalBinary pl = .ret v none →
      (getFirmware c).1 = .ret v none) ∧
    (∀ v, Answers c 0xCE pl trailing → FanProfiles.unmarshalBinary pl = .ret v none →
      (getFanProfiles c).1 = .ret v none) ∧
    (∀ v, Answers c 0xD2 pl trailing → Temps.unmarshalBinary pl = .ret v none →
      (getTemperatures c).1 = .ret v none) ∧
    (∀ v, Answers c 0xDA pl trailing → Errors.unmarshalBinary pl = .ret v none →
      (getErrors c).1 = .ret v none) ∧
    (∀ v, Answers c 0xDE pl trailing → Hours.unmarshalBinary pl = .ret v none →
      (getHours c).1 = .ret v none) ∧
    (∀ v, Answers c 0xE0 pl trailing → Bypass.unmarshalBinary pl = .ret v none →
      (getBypass c).1 = .ret v none) := by
  refine ⟨?_, ?_, ?_, ?_, ?_, ?_, ?_, ?_⟩
  all_goals
    rintro v ⟨h1, h2, h3, h4, h5⟩ hu
  · exact getter_reply (gr := .fans) _ .fans id (fun _ => rfl) (fun _ => rfl) pl trailing hp c h1 h2 h3 h4 h5 v hu
  · exact getter_reply (gr := .bootloader) _ .bootInfo id (fun _ => rfl) (fun _ => rfl) pl trailing hp c h1 h2 h3 h4 h5 v hu
  · exact getter_reply (gr := .firmware) _ .bootInfo id (fun _ => rfl) (fun _ => rfl) pl trailing hp c h1 h2 h3 h4 h5 v hu
  · exact getter_reply (gr := .fanProfiles) _ .fanProfiles id (fun _ => rfl) (fun _ => rfl) pl trailing hp c h1 h2 h3 h4 h5 v hu
  · exact getter_reply (gr := .temps) _ .temps id (fun _ => rfl) (fun _ => rfl) pl trailing hp c h1 h2 h3 h4 h5 v hu
  · exact getter_reply (gr := .errors) _ .errors id (fun _ => rfl) (fun _ => rfl) pl trailing hp c h1 h2 h3 h4 h5 v hu
  · exact getter_reply (gr := .hours) _ .hours id (fun _ => rfl) (fun _ => rfl) pl trailing hp c h1 h2 h3 h4 h5 v hu
  · exact getter_reply (gr := .bypass) _ .bypass id (fun _ => rfl) (fun _ => rfl) pl trailing hp c h1 h2 h3 h4 h5 v hu

/-- Non-vacuity of C55: a reply in three chunks with trailing bytes. -/
example : Answers { rd := [.data [7], .data [0xF3, 7, 0xF0, 0], .data
      [0xE0, 7, 0, 0, 11, 12, 13, 0, 1, 0xB9, 7, 0x0F, 1, 2, 3]] } 0xE0 [0, 0, 11, 12, 13, 0, 1]
      [1, 2, 3] := by
  refine ⟨by decide, by decide, rfl, by decide, ?_⟩
  decide

theorem getter_failed {gr : GetRequest} {zero : α} {assert : Response → Option α} {c c' : Conn} {v : α}
    {e : Err} (h : getter gr zero assert c = (.ret v (some e), c')) : v = zero := by
  unfold getter at h
  split at h
  · cases h
  · cases h; rfl
  · cases h
  · split at h <;> cases h

/-- **C55** A getter that fails returns no data: every field is zero, empty or false. -/
theorem C55_failed {c c' : Conn} {e : Err} :
    (∀ v, getFans c = (.ret v (some e), c') → v = ⟨0, 0, 0, 0⟩) ∧
    (∀ v, getBootloader c = (.ret v (some e), c') → v = ⟨0, 0, 0, []⟩) ∧
    (∀ v, getFirmware c = (.ret v (some e), c') → v = ⟨0, 0, 0, []⟩) ∧
    (∀ v, getFanProfiles c = (.ret v (some e), c') →
      v = ⟨0, 0, 0, 0, false, 0, 0, 0, 0, 0, 0, 0⟩) ∧
    (∀ v, getTemperatures c = (.ret v (some e), c') → v = ⟨0, 0, 0, 0, 0, 0, 0, 0⟩) ∧
    (∀ v, getErrors c = (.ret v (some e), c') → v = ⟨false⟩) ∧
    (∀ v, getHours c = (.ret v (some e), c') → v = ⟨0, 0, 0, 0, 0, 0, 0, 0⟩) ∧
    (∀ v, getBypass c = (.ret v (some e), c') → v = ⟨0, 0, 0, false⟩) :=
  ⟨fun _ h => getter_failed h, fun _ h => getter_failed h, fun _ h => getter_failed h,
    fun _ h => getter_failed h, fun _ h => getter_failed h, fun _ h => getter_failed h,
    fun _ h => getter_failed h, fun _ h => getter_failed h⟩

/-- Non-vacuity: a reply of the right command with a byte too few. -/
example : ∃ c', getBypass { rd := [.data [7, 0xF3, 7, 0xF0, 0, 0xE0, 6, 9, 9, 11, 12, 13, 1, 0xCA, 7, 0x0F]] } =
    (.ret ⟨0, 0, 0, false⟩ (some .pktLen), c') := by
  refine ⟨_, Prod.ext ?_ rfl⟩
  decide

end Comfo.Props
