import Verif.Spec.GoRead
import Verif.Props.Read
import Verif.Props.JsonLib
import Verif.Props.Path
/-!
# C103: what a call of a Go client returns, in terms of the unit

As C91 and C96 for the Python client: from the bytes on the wire, through decoding, the cache, the
request handler, the encoding of the answer in protobuf or JSON, and the response, to the struct in
Go; for both clients, and every interleaving.
-/
namespace Comfo.Props
open Spec Log Comfo.Pb Comfo.Twirp Comfo.Json

/-- The decoding of requests in the server. -/
abbrev codec : Codec := pbCodec jsonRequest jsonRequest_method

/-- A call that returns no error was answered, and with success. -/
theorem go_answered_later {ω : Type} {a b : Bool} {base : Url} (hp : base.path = []) {f : Fmt} {s : Sys σ}
    {net : Net ω} {v : ω} {n : Nat} (hb : RelaysLater (goJson a b) cleanPath codec net v s n) {c : Call} {m : Method}
    (hm : c.method = some m) (ha : ArgFits c) {st : Struct}
    (hr : (goClient (goJson a b) net f base m (goArg c) v).1 = .ok st) :
    ∃ i r, n ≤ i ∧ Answered s i c r ∧ Success m r ∧ r.marshals = true ∧
      (ShortName r → ExactTemps r → st = answerFields r) := by
  obtain ⟨-, -, -, body, resp, bs, h1, h2, h3, h4, h5⟩ := go_ok hr
  obtain ⟨body', h6, h7⟩ := go_body (goJson_lawful a b) jsonRequest_method f hm ha
  rw [h1] at h6
  obtain rfl := Option.some.inj h6
  obtain ⟨-, -, hmf, -⟩ := go_carries cleanPath routes_canonical codec amd64 base hp f h7
  obtain ⟨i, r, W, hi, hA, hq⟩ := hb _ _ h2 m f c hmf h7
  obtain ⟨r', st', e, hs, h8, h9⟩ := respond_200 h3 h4 W _ _ hq
  have hu : r.marshals = true ∧ r = r' := by
    unfold Resp.http at e
    split at e
    · rename_i hu
      exact ⟨hu, HttpAns.answer.inj e⟩
    · cases e
  obtain ⟨hu, rfl⟩ := hu
  refine ⟨i, r, hi, hA, hs, hu, fun hl ht => ?_⟩
  have hk := respond_ok (goJson a b) jsonRequest (goJson_lawful a b) W net f m
    (sentOf base f m body).req r hs hu hl ht
  rw [← hq] at hk
  unfold resultOf at hk
  rw [if_neg (by simp [h3])] at hk
  rw [h4] at hk
  cases f
  · have h5 : (goJson a b).decRes m bs = some st := h5
    simp only [h5] at hk
    exact Except.ok.inj hk
  · have h5 : goUnmarshal (goOutput m) bs = some st := h5
    simp only [h5] at hk
    exact Except.ok.inj hk

theorem go_answered {ω : Type} {a b : Bool} {base : Url} (hp : base.path = []) {f : Fmt} {s : Sys σ}
    {net : Net ω} {v : ω} (hb : Relays (goJson a b) cleanPath codec net v s) {c : Call} {m : Method}
    (hm : c.method = some m) (ha : ArgFits c) {st : Struct}
    (hr : (goClient (goJson a b) net f base m (goArg c) v).1 = .ok st) :
    ∃ i r, Answered s i c r ∧ Success m r ∧ r.marshals = true ∧
      (ShortName r → ExactTemps r → st = answerFields r) := by
  obtain ⟨i, r, -, h⟩ := go_answered_later (n := 0) hp (fun snt resp h1 m f c h2 h3 => by
    obtain ⟨i, r, W, h⟩ := hb snt resp h1 m f c h2 h3
    exact ⟨i, r, W, Nat.zero_le _, h⟩) hm ha hr
  exact ⟨i, r, h⟩

theorem beq_dec [BEq α] [LawfulBEq α] [DecidableEq α] (a b : α) : (a == b) = decide (a = b) := by
  by_cases h : a = b <;> simp [h]

theorem go_boot {pl : List UInt8} {v : BootInfo} (hu : BootInfo.unmarshalBinary pl = .ret v none) :
    GoStands .boot pl (answerFields (.boot (.ok (BootInfo.protobuf v)))) := by
  by_cases hl : pl.length = 13
  · obtain ⟨a, b, c, name, rfl, hn⟩ := list13 hl
    rw [bootInfo_list a b c name hn] at hu
    simp at hu; subst hu
    obtain ⟨pre, post, h1, h2, h3, h4⟩ := trimSpace_spec name
    exact ⟨_, by simp [answerFields, BootInfo.protobuf], hn, h4, pre, post, h1, h2, h3⟩
  · rw [bootInfo_bad hl] at hu; simp at hu

theorem go_bypass {pl : List UInt8} {v : Bypass} (hu : Bypass.unmarshalBinary pl = .ret v none) :
    GoStands .bypass pl (answerFields (.bypass (.ok (Bypass.protobuf v)))) := by
  by_cases hl : pl.length = 7
  · obtain ⟨b0, b1, b2, b3, b4, b5, b6, rfl⟩ := list7 hl
    simp [Bypass.unmarshalBinary, Go.ofOption] at hu
    subst hu
    simp [GoStands, answerFields, Bypass.protobuf, beq_dec]
  · rw [bypass_bad hl] at hu; simp at hu

theorem go_temps {pl : List UInt8} {v : Temps} (hu : Temps.unmarshalBinary pl = .ret v none)
    (hx : ExactTemps (.temps (.ok (Temps.protobuf v)))) :
    GoStands .temps pl (answerFields (.temps (.ok (Temps.protobuf v)))) := by
  by_cases hl : pl.length = 9
  · obtain ⟨b0, b1, b2, b3, b4, b5, b6, b7, b8, rfl⟩ := list9 hl
    simp [Temps.unmarshalBinary, Go.ofOption] at hu
    subst hu
    obtain ⟨x1, x2, x3, x4, x5, x6, x7, x8⟩ := hx
    simp only [GoStands, answerFields, List.map_cons, List.map_nil, floatOf]
    simp only [f32_ok x1, f32_ok x2, f32_ok x3, f32_ok x4, f32_ok x5, f32_ok x6, f32_ok x7, f32_ok x8]
    simp [Temps.protobuf, temperature_degrees]
  · rw [temps_bad hl] at hu; simp at hu

theorem go_fans {pl : List UInt8} {v : Fans} (hu : Fans.unmarshalBinary pl = .ret v none) :
    GoStands .fans pl (answerFields (.fans (.ok (Fans.protobuf v)))) := by
  by_cases hl : pl.length = 6
  · obtain ⟨a, b, p0, p1, q0, q1, rfl⟩ := list6 hl
    have be : ∀ a b : UInt8, bigEndian [a, b] = a.toNat * 256 + b.toNat := by
      intro a b; simp [bigEndian]
    by_cases hz : p0.toNat * 256 + p1.toNat = 0 ∨ q0.toNat * 256 + q1.toNat = 0
    · rw [(fans_list a b p0 p1 q0 q1).1 hz] at hu; simp at hu
    · have z1 := fun h => hz (.inl h)
      have z2 := fun h => hz (.inr h)
      obtain ⟨v', hv, e1, e2, e3, e4⟩ := (fans_list a b p0 p1 q0 q1).2 z1 z2
      rw [hv] at hu
      simp at hu; subst hu
      refine ⟨by rw [be]; exact z1, by rw [be]; exact z2, ?_⟩
      rw [be, be, ← e3, ← e4]
      simp [answerFields, Fans.protobuf, e1, e2]
  · rw [fans_bad hl] at hu; simp at hu

theorem go_profiles {pl : List UInt8} {v : FanProfiles}
    (hu : FanProfiles.unmarshalBinary pl = .ret v none) :
    GoStands .profiles pl (answerFields (.profiles (.ok (FanProfiles.protobuf v)))) := by
  by_cases hl : pl.length = 14
  · obtain ⟨a, b, c1, d, e, f, g, i, j, k, m, n, o, p, rfl⟩ := list14 hl
    rw [profiles_list] at hu
    simp at hu; subst hu
    simp [GoStands, answerFields, FanProfiles.protobuf, beq_dec]
  · rw [profiles_bad hl] at hu; simp at hu

theorem go_errors {pl : List UInt8} {v : Errors} (hu : Errors.unmarshalBinary pl = .ret v none) :
    GoStands .errors pl (answerFields (.errors (.ok (Errors.protobuf v)))) := by
  by_cases hl : pl.length = 17
  · rw [errors_list hl] at hu
    simp at hu; subst hu
    exact ⟨hl, by simp [answerFields, Errors.protobuf, beq_dec]⟩
  · rw [errors_bad hl] at hu; simp at hu

/-- What a client makes of the answer for a value that was decoded stands for the payload. -/
theorem go_stands {id : CacheId} {pl : List UInt8} {v : CVal id} (hd : decode id pl = some v) :
    ShortName (getAnswer id v) ∧ ExactTemps (getAnswer id v) ∧
      GoStands id pl (answerFields (getAnswer id v)) := by
  cases id
  · exact ⟨short_decoded hd, trivial, go_boot (okVal_some hd)⟩
  · exact ⟨trivial, trivial, go_bypass (okVal_some hd)⟩
  · exact ⟨trivial, exact_decoded hd, go_temps (okVal_some hd) (exact_decoded hd)⟩
  · exact ⟨trivial, trivial, go_fans (okVal_some hd)⟩
  · exact ⟨trivial, trivial, go_profiles (okVal_some hd)⟩
  · exact ⟨trivial, trivial, go_errors (okVal_some hd)⟩

/-- **C103** Whatever a getter of a Go client returns, if the log of the start of the server names no
failure for the cache it reads: there is, whole and with the right command, length and checksum, a reply
in the bytes the unit sent, and every field of the struct is what the byte at its place says. For any
connection, which may stall, fail and deliver the bytes in any pieces, both clients, any other requests,
and every interleaving. -/
theorem C103_read {ω : Type} {S : Setup Conn} (hS : S.line = scriptLine)
    (hE : ∀ a b, S.env a b → b.rd = a.rd) {W : Wording} {line : Conn} {clock : Int} {adv : List Nat}
    {id : CacheId} {recs : List Record}
    (hl : ((startCachesLogged W).run S.line (World.initial line clock adv)).1 = some recs)
    (hno : ∀ r ∈ recs, r.level = .error → ¬ Names id r) {s : Sys Conn}
    (h : Reachable S (Sys.initial (started S.line line clock adv)) s)
    {a b : Bool} {base : Url}
    (hp : base.path = []) {f : Fmt} {net : Net ω} {v : ω}
    (hb : Relays (goJson a b) cleanPath codec net v s) {o : Struct}
    (hr : (goClient (goJson a b) net f base (readMethod id) [] v).1 = .ok o) :
    ∃ part payload, part <:+ bytesOf line.rd ∧ ReplyIn part (requestCode id + 1) payload ∧
      GoStands id payload o := by
  have ha : goArg (getCall id) = [] := by cases id <;> rfl
  rw [← ha] at hr
  obtain ⟨i, r, hA, -, -, ho⟩ := go_answered hp hb (by cases id <;> rfl) (by cases id <;> trivial) hr
  obtain ⟨part, payload, val, h3, h4, h5, rfl⟩ := answer_read_told hS hE hl hno h hA
  obtain ⟨h6, h7, h8⟩ := go_stands h5
  rw [ho h6 h7]
  exact ⟨part, payload, h3, h4, h8⟩

/-- **C103** Without the log: the same, or all fields are zero, which is served for a cache that could
not be filled yet. -/
theorem C103_read_or_zero {ω : Type} {S : Setup Conn} (hS : S.line = scriptLine)
    (hE : ∀ a b, S.env a b → b.rd = a.rd) {line : Conn} {clock : Int} {adv : List Nat}
    {id : CacheId} {s : Sys Conn}
    (h : Reachable S (Sys.initial (started S.line line clock adv)) s)
    {a b : Bool} {base : Url}
    (hp : base.path = []) {f : Fmt} {net : Net ω} {v : ω}
    (hb : Relays (goJson a b) cleanPath codec net v s) {o : Struct}
    (hr : (goClient (goJson a b) net f base (readMethod id) [] v).1 = .ok o) :
    (∃ part payload, part <:+ bytesOf line.rd ∧ ReplyIn part (requestCode id + 1) payload ∧
      GoStands id payload o) ∨ o = goZero id := by
  have ha : goArg (getCall id) = [] := by cases id <;> rfl
  rw [← ha] at hr
  obtain ⟨i, r, hA, -, -, ho⟩ := go_answered hp hb (by cases id <;> rfl) (by cases id <;> trivial) hr
  rcases answer_read_or_zero hS hE h hA with ⟨part, payload, val, h3, h4, h5, rfl⟩ | rfl
  · obtain ⟨h6, h7, h8⟩ := go_stands h5
    rw [ho h6 h7]
    exact .inl ⟨part, payload, h3, h4, h8⟩
  · right
    have h0 : Exact 0 := by unfold Exact; decide
    rw [ho (by cases id <;> first | trivial | exact (show (0 : Nat) < 2 ^ 64 by decide))
      (by cases id <;> first | trivial | exact ⟨h0, h0, h0, h0, h0, h0, h0, h0⟩)]
    cases id <;> rfl

theorem modifySpeed_target {base m : UInt8} {abs : UInt32} {up : Bool}
    (h : modifySpeed base abs up = (m, none)) :
    if abs ≠ 0 then up = false ∧ m.toNat = abs.toNat % 256
      else if up then m.toNat = base.toNat + 1 else m.toNat + 1 = base.toNat := by
  have h39 := C39_modify_speed base abs up
  rw [h] at h39
  obtain ⟨-, -, h1, h2, h3, -⟩ := h39
  split
  · rename_i ha
    have hu : up = false := by
      cases up
      · rfl
      · exact absurd rfl (h1 ⟨ha, rfl⟩)
    subst hu
    refine ⟨rfl, ?_⟩
    unfold modifySpeed at h
    simp only [ha, ne_eq, not_false_eq_true, Bool.false_eq_true, and_false, if_false, if_true] at h
    split at h
    · cases h
    · cases h
      simp
  · rename_i ha
    have ha := Classical.not_not.1 ha
    cases up
    · exact (h3 ⟨ha, rfl⟩).2 rfl
    · exact (h2 ⟨ha, rfl⟩).2 rfl

/-- **C103** `SetFanSpeed`: `Modified` means that the unit was told the speed in `TargetSpeed`, has
confirmed it and runs at it until the next speed command; otherwise it is the speed in the cache, and
nothing was sent. The target is the number that was asked for (its lowest byte), or one more or less than
the speed that was seen in the cache, which is `OriginalSpeed`. -/
theorem C103_speed {ω : Type} {S : Setup σ} (U : SettingUnit 0x99 S.line S.env) {w : World σ} {s : Sys σ}
    (h : Reachable S (Sys.initial w) s)
    {a b : Bool} {base : Url}
    (hp : base.path = []) {f : Fmt} {net : Net ω} {v : ω}
    (hb : Relays (goJson a b) cleanPath codec net v s) {abs : UInt32} {up : Bool} {o : Struct}
    (hr : (goClient (goJson a b) net f base .setFanSpeed [(1, .u32 abs), (2, .bool up)] v).1 = .ok o) :
    ∃ (i : Nat) (c : Entry FanProfiles) (mod : Bool) (m : UInt8) (t : List UInt8),
      o = [(1, .bool mod), (2, .u32 (.ofNat c.val.currentMode.toNat)), (3, .u32 (.ofNat m.toNat)),
        (4, .str t)] ∧
      Saw s i .profiles c ∧ 1 ≤ m.toNat ∧ m.toNat ≤ 4 ∧
      (if abs ≠ 0 then up = false ∧ m.toNat = abs.toNat % 256
        else if up then m.toNat = c.val.currentMode.toNat + 1
        else m.toNat + 1 = c.val.currentMode.toNat) ∧
      (mod = true → m ≠ c.val.currentMode ∧ Effected U s i [m]) ∧
      (mod = false → m = c.val.currentMode ∧ Silent s i) := by
  obtain ⟨i, r, hA, hs, -, ho⟩ := go_answered (c := .setSpeed abs up) hp hb rfl trivial hr
  cases r <;> try exact False.elim hs
  rename_i x
  cases x with
  | err e => exact False.elim hs
  | ok x =>
  obtain rfl := ho trivial trivial
  obtain ⟨t, c, rest, hacts, hv⟩ := setSpeed_path (answered_path h hA)
  obtain ⟨m, hm, h1, h2, h3, h4⟩ := hv x rfl
  obtain ⟨m₂, k1, k2, k3, k4, k5⟩ := C42_speed_set_partial U h hA
  have e : m₂ = m := by
    have := congrArg UInt32.toNat (k1.symm.trans h2)
    simpa [← UInt8.toNat_inj] using this
  subst e
  have hload : actsOf (.client i) s.sh.trace = [.now t, .lock .fan] ++ .load .profiles c :: rest := hacts
  obtain ⟨pre, post, htr, -, -⟩ := actsOf_split hload
  refine ⟨i, c, x.modified, m₂, durString x.reqTime, by simp [answerFields, h1, h2], saw htr, k2, k3,
    modifySpeed_target hm, fun hmod => ⟨(h3 hmod).1, k4 hmod⟩, fun hmod => ⟨(h4 hmod).1, ?_⟩⟩
  obtain ⟨-, -, -, -, -, hsil⟩ := k5 hmod
  exact hsil

/-- **C103** `SetComfortTemp`: `Modified` means that the unit was told the temperature in `TargetTemp`,
which is the one asked for, has confirmed it, and is set to it until the next such command; otherwise it is
the temperature in the cache (as converted to a byte), and nothing was sent. -/
theorem C103_comfort {ω : Type} {S : Setup σ} (U : SettingUnit 0xD3 S.line S.env) {w : World σ} {s : Sys σ}
    (h : Reachable S (Sys.initial w) s)
    {a b : Bool} {base : Url}
    (hp : base.path = []) {f : Fmt} {net : Net ω} {v : ω}
    (hb : Relays (goJson a b) cleanPath codec net v s) {x : UInt32} {o : Struct}
    (hr : (goClient (goJson a b) net f base .setComfortTemp [(1, .u32 x)] v).1 = .ok o) :
    ∃ (i : Nat) (mod : Bool) (old : UInt32) (t : List UInt8),
      o = [(1, .bool mod), (2, .u32 old), (3, .u32 x), (4, .str t)] ∧ x.toNat ≤ 255 ∧
      (mod = true → ∃ d : UInt8, degrees d = x.toNat ∧ Effected U s i [d]) ∧
      (mod = false → Silent s i ∧ ∃ c : Entry Temps, Saw s i .temps c ∧
        (S.cv.u8 c.val.comfort).toNat = x.toNat) := by
  obtain ⟨i, r, hA, hs, -, ho⟩ := go_answered (c := .setComfort x) hp hb rfl trivial hr
  cases r <;> try exact False.elim hs
  rename_i y
  cases y with
  | err e => exact False.elim hs
  | ok y =>
  obtain rfl := ho trivial trivial
  obtain ⟨h1, h2, h3, h4⟩ := C59_comfort_set_partial U h hA
  refine ⟨i, y.modified, y.originalTemp, durString y.reqTime, by simp [answerFields, h1], h2, fun hmod => ?_,
    fun hmod => ?_⟩
  · obtain ⟨d, hd, he⟩ := h3 hmod
    exact ⟨d, by unfold degrees; omega, he⟩
  · obtain ⟨c, pre, post, htr, hc, hsil⟩ := h4 hmod
    exact ⟨hsil, c, saw htr, hc⟩

/-- **C103** `SetFanProfile`: `Modified` means that the unit was told the percentage asked for (its lowest
byte) for both fans of the mode, has confirmed it, and has these percentages until the next such command;
otherwise it is the percentage of the in-fan of the mode in the cache, and nothing was sent. -/
theorem C103_profile {ω : Type} {S : Setup σ} (U : SettingUnit 0xCF S.line S.env) {w : World σ} {s : Sys σ}
    (h : Reachable S (Sys.initial w) s)
    {a b : Bool} {base : Url}
    (hp : base.path = []) {f : Fmt} {net : Net ω} {v : ω}
    (hb : Relays (goJson a b) cleanPath codec net v s) {m x : UInt32} {o : Struct}
    (hr : (goClient (goJson a b) net f base .setFanProfile [(1, .u32 m), (2, .u32 x)] v).1 = .ok o) :
    ∃ (i : Nat) (mod : Bool) (old : UInt32) (t : List UInt8) (mode pc : UInt8),
      o = [(1, .bool mod), (2, .u32 old), (3, .u32 x), (4, .str t)] ∧
      mode.toNat = m.toNat % 256 ∧ pc.toNat = x.toNat % 256 ∧
      1 ≤ mode.toNat ∧ mode.toNat ≤ 4 ∧ 15 ≤ pc.toNat ∧ pc.toNat ≤ 100 ∧
      (mod = true → ∃ d, d.length = 8 ∧ (∀ k ∈ entries (mode.toNat - 1), d[k]? = some pc) ∧
        Effected U s i d) ∧
      (mod = false → Silent s i ∧ ∃ c : Entry FanProfiles, Saw s i .profiles c ∧
        (percentages c.val)[([3, 4, 5, 7] : List Nat).getD (mode.toNat - 1) 0]? = some pc) := by
  obtain ⟨i, r, hA, hs, -, ho⟩ := go_answered (c := .setProfile m x) hp hb rfl trivial hr
  cases r <;> try exact False.elim hs
  rename_i y
  cases y with
  | err e => exact False.elim hs
  | ok y =>
  obtain rfl := ho trivial trivial
  obtain ⟨mode, pc, h1, h2, h3, h4, h5, h6, h7, h8, h9⟩ := C65_profile_set_partial U h hA
  refine ⟨i, y.modified, y.originalSpeed, durString y.reqTime, mode, pc, by simp [answerFields, h7], h1, h2, h3,
    h4, h5, h6, fun hmod => ?_, fun hmod => ?_⟩
  · obtain ⟨d, pre, rest, k1, k2, k3⟩ := h8 hmod
    exact ⟨d, k1, k2, pre, rest, k3⟩
  · obtain ⟨c, pre, post, htr, hc, hsil⟩ := h9 hmod
    exact ⟨hsil, c, saw htr, hc⟩

/-- A network that brings the response to the first such request that has an answer. -/
def relay (s : Sys σ) : Net Unit where
  exchange snt v := (match router cleanPath snt.req with
    | .handler m f =>
      match codec.decode m f snt.req.body with
      | some c =>
        match (answers s c ()).1 with
        | some r => .ok (respond (goJson true true) toyWording f m snt.req r.http)
        | none => .error (lit "no answer")
      | none => .error (lit "no answer")
    | _ => .error (lit "no answer"), v)
  ctx _ := none
  msg _ := lit "error from intermediary"
  lib := lit "proto: cannot parse"
  close := none

theorem relay_relays (s : Sys σ) : Relays (goJson true true) cleanPath codec (relay s) () s := by
  intro snt resp h m f c hm hd
  simp only [relay, (C53_routing cleanPath snt.req m f).2 hm, hd] at h
  cases hr : (answers s c ()).1 with
  | none => rw [hr] at h; cases h
  | some r =>
    rw [hr] at h
    cases h
    obtain ⟨i, hi⟩ := answers_brings s c r hr
    exact ⟨i, r, toyWording, hi, rfl⟩

/-- The address of a server. -/
def lan : Url := ⟨[], "heating.lan".toList, []⟩

/-- The hypotheses of `C103_read` are met: no failure in the log, and both clients return the
temperatures; the reply of the unit was that of the script. -/
example : (((startCachesLogged toyWording).run scripted.line (World.initial talkative 7 [])).1.any
      fun rs => rs.all fun r => r.level ≠ .error) = true ∧
    (∃ s, Reachable scripted (Sys.initial (started scripted.line talkative 7 [])) s ∧
      ([Fmt.json, Fmt.protobuf].all fun f =>
        match (goClient (goJson true true) (relay s) f lan .getTemps [] ()).1 with
        | .ok o => o.map (fun x => (x.1, floatOf x.2)) == [(1, some 21), (2, some 5), (3, some 20), (4, some 21),
            (5, some 6), (6, some (-20)), (7, some (-20)), (8, some (-20))]
        | .error _ => false) = true) := by
  refine ⟨by decide +kernel, exec_witness _ ([.arrive .getTemps] ++ steps 3 (.client 0))
    (fun _ _ => trivial) _ ?_⟩
  decide +kernel

/-- The second case of `C103_read_or_zero`: the connection is dead, and all fields are zero. -/
example : ∃ s, Reachable scripted (Sys.initial (started scripted.line { rd := [.fail []] } 7 [])) s ∧
      ([Fmt.json, Fmt.protobuf].all fun f =>
        match (goClient (goJson true true) (relay s) f lan .getFanProfiles [] ()).1 with
        | .ok o => o == goZero .profiles
        | .error _ => false) = true := by
  refine exec_witness _ ([.arrive .getProfiles] ++ steps 3 (.client 0)) (fun _ _ => trivial) _ ?_
  decide +kernel

/-- The hypotheses of the others are met: the speed is set from 3 to 2, and the unit runs at speed 2; setting
it to 3, which it is, gives no modification; and the comfort temperature is set to 25 degrees. -/
example : (∃ s, Reachable vent (Sys.initial (ventStart 3)) s ∧
      (s.sh.world.line.speed == 2 &&
        match (goClient (goJson true true) (relay s) .json lan .setFanSpeed [(1, .u32 2), (2, .bool false)] ()).1 with
        | .ok o => o.take 3 == [(1, .bool true), (2, .u32 3), (3, .u32 2)]
        | .error _ => false) = true) ∧
    (∃ s, Reachable vent (Sys.initial (ventStart 3)) s ∧
      (match (goClient (goJson true true) (relay s) .protobuf lan .setFanSpeed
          [(1, .u32 3), (2, .bool false)] ()).1 with
        | .ok o => o.take 3 == [(1, .bool false), (2, .u32 3), (3, .u32 3)]
        | .error _ => false) = true) ∧
    (∃ s, Reachable vent (Sys.initial (ventStart 3)) s ∧
      (s.sh.world.line.comfort == 90 &&
        match (goClient (goJson true true) (relay s) .protobuf lan .setComfortTemp [(1, .u32 25)] ()).1 with
        | .ok o => o.take 3 == [(1, .bool true), (2, .u32 21), (3, .u32 25)]
        | .error _ => false) = true) := by
  refine ⟨exec_witness _ ([.arrive (.setSpeed 2 false)] ++ steps 35 (.client 0)) (fun _ _ => trivial) _ ?_,
    exec_witness _ ([.arrive (.setSpeed 3 false)] ++ steps 5 (.client 0)) (fun _ _ => trivial) _ ?_,
    exec_witness _ ([.arrive (.setComfort 25)] ++ steps 20 (.client 0)) (fun _ _ => trivial) _ ?_⟩
  all_goals decide +kernel

end Comfo.Props
