import Verif.Props.GoRead
import Verif.Props.SoonPy
/-!
# What the unit shows is what Go clients see, and so are settings that were changed: C111, C112
-/
namespace Comfo.Props
open Spec Pace Comfo.Pb Comfo.Twirp Comfo.Json

variable {σ : Type} {S : Setup σ} {w : World σ} {f : Nat → Sys σ}

/-- **C111** (4) The same as for the Python client, for both kinds of Go clients. -/
theorem C111_go {ω : Type} {δ r A j : Nat} (T : Timely S w f δ r) (hA : JobsWithin f δ r A)
    (hw : ∀ id, (w.get id).last ≤ w.clock) {k : Tick} (hk : Ticking f k δ j) {id : CacheId} (hid : id ∈ tier k)
    {p n n' : Nat} (hn : (f p).sh.world.clock + (tickTime δ r A j k + 4500000000 : Nat) < (f n).sh.world.clock)
    (hnn : n ≤ n') {ext : List (Tid × Act)} (hext : (f n').sh.trace = (f p).sh.trace ++ ext)
    {P : CVal id → Prop} (hs : Shows id P ext) {a b : Bool} {base : Url} (hp : base.path = []) {fmt : Fmt}
    {net : Net ω} {u : ω} (hb : RelaysLater (goJson a b) cleanPath codec net u (f n') (f n).clients.length) {o : Struct}
    (hr : (goClient (goJson a b) net fmt base (readMethod id) [] u).1 = .ok o) :
    ∃ pl v, decode id pl = some v ∧ P v ∧ GoStands id pl o := by
  have ha : goArg (getCall id) = [] := by cases id <;> rfl
  rw [← ha] at hr
  obtain ⟨i, y, hi, hy, -, -, ho⟩ := go_answered_later hp hb (by cases id <;> rfl) (by cases id <;> trivial) hr
  have hs' : Shows id (fun v => P v ∧ ∃ pl, decode id pl = some v) ext := by
    refine ⟨hs.writes, fun as t q err bs he hl => ?_⟩
    obtain ⟨h1, h2, v, h3, h4⟩ := hs.reply as t q err bs he hl
    exact ⟨h1, h2, v, h3, h4, _, h3⟩
  obtain ⟨v, ⟨h1, pl, h2⟩, rfl⟩ := C111_shown T hA hw hk hid hn hnn hext hs' hi hy
  obtain ⟨h3, h4, h5⟩ := go_stands h2
  rw [ho h3 h4]
  exact ⟨pl, v, h2, h1, h5⟩

/-- A command was confirmed, and the unit works since then: after the bound of C111 a Go client that asks for the cache sees
the setting. -/
theorem soon_go {ω : Type} {cmd : UInt8} {id : CacheId} {shows : List UInt8 → CVal id → Prop} (hcmd : cmd ≠ requestCode id)
    (U : ReportUnit cmd id shows S.line S.env) {δ r A j : Nat} (T : Timely S w f δ r) (hA : JobsWithin f δ r A)
    (hw : ∀ id, (w.get id).last ≤ w.clock) {k : Tick} (hk : Ticking f k δ j) (hid : id ∈ tier k) {p n n' : Nat}
    (hn : (f p).sh.world.clock + (tickTime δ r A j k + 4500000000 : Nat) < (f n).sh.world.clock)
    (hnn : n ≤ n') {ext : List (Tid × Act)} (hext : (f n').sh.trace = (f p).sh.trace ++ ext)
    (hs : Shows id (fun _ => True) ext) {t : Tid} {d : List UInt8} {pre rest : List (Tid × Act)}
    (hc : Confirmed (f p).sh.trace t (frame cmd d) pre rest) {a b : Bool} {base : Url} (hp : base.path = []) {fmt : Fmt}
    {net : Net ω} {u : ω} (hb : RelaysLater (goJson a b) cleanPath codec net u (f n') (f n).clients.length) {o : Struct}
    (hr : (goClient (goJson a b) net fmt base (readMethod id) [] u).1 = .ok o) :
    Confirmed (f n').sh.trace t (frame cmd d) pre (rest ++ ext) ∧
      (NoCommand cmd (rest ++ ext) → ∃ v, o = answerFields (getAnswer id v) ∧ ExactTemps (getAnswer id v) ∧ shows d v) := by
  have ha : goArg (getCall id) = [] := by cases id <;> rfl
  rw [← ha] at hr
  obtain ⟨i, y, hi, hy, -, -, ho⟩ := go_answered_later hp hb (by cases id <;> rfl) (by cases id <;> trivial) hr
  have hs' : Shows id (fun v => ∃ pl, decode id pl = some v) ext := by
    refine ⟨hs.writes, fun as t q err bs he hl => ?_⟩
    obtain ⟨h1, h2, v, h3, -⟩ := hs.reply as t q err bs he hl
    exact ⟨h1, h2, v, h3, _, h3⟩
  obtain ⟨v, ⟨pl, h2⟩, e⟩ := C111_shown T hA hw hk hid hn hnn hext hs' hi hy
  obtain ⟨h3, h4, -⟩ := go_stands h2
  rw [← e] at h3 h4
  obtain ⟨h5, h6⟩ := soon_back hcmd U T hA hw hk hid hn hnn hext hs hc hi hy
  refine ⟨h5, fun hno => ?_⟩
  obtain ⟨v', h7, h8⟩ := h6 hno
  exact ⟨v', h7 ▸ ho h3 h4, h7 ▸ h4, h8⟩

/-- **C112** (8) As for the Python client, for both kinds of Go clients: `SetComfortTemp(x)` has returned a struct with
`Modified`; then `ComfortTemp` is `x` in what `GetTemps` returns after the bound of C111, unless somebody has written another
command for it since. -/
theorem C112_go_comfort {ω ω' : Type} (U : ReportUnit 0xD3 .temps ShowsComfort S.line S.env) {δ r A j : Nat}
    (T : Timely S w f δ r) (hA : JobsWithin f δ r A) (hw : ∀ id, (w.get id).last ≤ w.clock) (hk : Ticking f .fast δ j)
    {p n n' : Nat} (hn : (f p).sh.world.clock + (tickTime δ r A j .fast + 4500000000 : Nat) < (f n).sh.world.clock)
    (hnn : n ≤ n') {ext : List (Tid × Act)} (hext : (f n').sh.trace = (f p).sh.trace ++ ext)
    (hs : Shows .temps (fun _ => True) ext)
    {a b : Bool} {base : Url} (hp : base.path = []) {fmt : Fmt} {net : Net ω} {u : ω}
    (hb : Relays (goJson a b) cleanPath codec net u (f p)) {x : UInt32} {o : Struct}
    (hr : (goClient (goJson a b) net fmt base .setComfortTemp [(1, .u32 x)] u).1 = .ok o)
    (hmod : o.lookup 1 = some (.bool true))
    {a' b' : Bool} {base' : Url} (hp' : base'.path = []) {fmt' : Fmt} {net' : Net ω'} {z : ω'}
    (hb' : RelaysLater (goJson a' b') cleanPath codec net' z (f n') (f n).clients.length) {o' : Struct}
    (hr' : (goClient (goJson a' b') net' fmt' base' .getTemps [] z).1 = .ok o') :
    ∃ i d pre rest, Confirmed (f n').sh.trace (.client i) (frame 0xD3 d) pre rest ∧
      (NoCommand 0xD3 rest → (o'.lookup 1).bind floatOf = some (x.toNat : Int)) := by
  obtain ⟨i, mod, old, t, rfl, -, h1, -⟩ := C103_comfort U.toSettingUnit (run_reach T.run p) hp hb hr
  obtain rfl : mod = true := by simpa using hmod
  obtain ⟨d, hd, pre, rest, hc, -⟩ := h1 rfl
  obtain ⟨h2, h3⟩ := soon_go (by decide) U T hA hw hk (by simp [tier]) hn hnn hext hs hc hp' hb' hr'
  refine ⟨i, _, pre, _, h2, fun hno => ?_⟩
  obtain ⟨v, rfl, ⟨h4, -⟩, b, h5, h6⟩ := h3 hno
  cases h5
  have h4 : Exact v.comfort := h4
  simp only [getAnswer, answerFields, Temps.protobuf, List.lookup, beq_self_eq_true, Option.bind_some, floatOf, f32_ok h4]
  unfold degrees at hd
  rw [h6]
  exact congrArg some (by omega)

/-- **C112** (9) The same for `SetFanSpeed`: `CurrentMode` is the `TargetSpeed` that was returned. -/
theorem C112_go_speed {ω ω' : Type} (U : ReportUnit 0x99 .profiles ShowsSpeed S.line S.env) {δ r A j : Nat}
    (T : Timely S w f δ r) (hA : JobsWithin f δ r A) (hw : ∀ id, (w.get id).last ≤ w.clock) (hk : Ticking f .slow δ j)
    {p n n' : Nat} (hn : (f p).sh.world.clock + (tickTime δ r A j .slow + 4500000000 : Nat) < (f n).sh.world.clock)
    (hnn : n ≤ n') {ext : List (Tid × Act)} (hext : (f n').sh.trace = (f p).sh.trace ++ ext)
    (hs : Shows .profiles (fun _ => True) ext)
    {a b : Bool} {base : Url} (hp : base.path = []) {fmt : Fmt} {net : Net ω} {u : ω}
    (hb : Relays (goJson a b) cleanPath codec net u (f p)) {abs : UInt32} {up : Bool} {o : Struct}
    (hr : (goClient (goJson a b) net fmt base .setFanSpeed [(1, .u32 abs), (2, .bool up)] u).1 = .ok o)
    (hmod : o.lookup 1 = some (.bool true))
    {a' b' : Bool} {base' : Url} (hp' : base'.path = []) {fmt' : Fmt} {net' : Net ω'} {z : ω'}
    (hb' : RelaysLater (goJson a' b') cleanPath codec net' z (f n') (f n).clients.length) {o' : Struct}
    (hr' : (goClient (goJson a' b') net' fmt' base' .getFanProfiles [] z).1 = .ok o') :
    ∃ i d pre rest, Confirmed (f n').sh.trace (.client i) (frame 0x99 d) pre rest ∧
      (NoCommand 0x99 rest → ∃ m, o.lookup 3 = some (.u32 m) ∧ o'.lookup 12 = some (.u32 m)) := by
  obtain ⟨i, c, mod, m, t, rfl, -, -, -, -, h1, -⟩ := C103_speed U.toSettingUnit (run_reach T.run p) hp hb hr
  obtain rfl : mod = true := by simpa using hmod
  obtain ⟨-, pre, rest, hc, -⟩ := h1 rfl
  obtain ⟨h2, h3⟩ := soon_go (by decide) U T hA hw hk (by simp [tier]) hn hnn hext hs hc hp' hb' hr'
  refine ⟨i, _, pre, _, h2, fun hno => ⟨_, rfl, ?_⟩⟩
  obtain ⟨v, rfl, -, h5⟩ := h3 hno
  cases h5
  simp [getAnswer, answerFields, FanProfiles.protobuf, List.lookup]

/-- **C112** (10) The same for `SetFanProfile(m, x)`: the fields of both fans for that mode are `x`; of `m` and `x` the lowest
byte counts (C43). -/
theorem C112_go_profile {ω ω' : Type} (U : ReportUnit 0xCF .profiles ShowsPct S.line S.env) {δ r A j : Nat}
    (T : Timely S w f δ r) (hA : JobsWithin f δ r A) (hw : ∀ id, (w.get id).last ≤ w.clock) (hk : Ticking f .slow δ j)
    {p n n' : Nat} (hn : (f p).sh.world.clock + (tickTime δ r A j .slow + 4500000000 : Nat) < (f n).sh.world.clock)
    (hnn : n ≤ n') {ext : List (Tid × Act)} (hext : (f n').sh.trace = (f p).sh.trace ++ ext)
    (hs : Shows .profiles (fun _ => True) ext)
    {a b : Bool} {base : Url} (hp : base.path = []) {fmt : Fmt} {net : Net ω} {u : ω}
    (hb : Relays (goJson a b) cleanPath codec net u (f p)) {m x : UInt32} {o : Struct}
    (hr : (goClient (goJson a b) net fmt base .setFanProfile [(1, .u32 m), (2, .u32 x)] u).1 = .ok o)
    (hmod : o.lookup 1 = some (.bool true))
    {a' b' : Bool} {base' : Url} (hp' : base'.path = []) {fmt' : Fmt} {net' : Net ω'} {z : ω'}
    (hb' : RelaysLater (goJson a' b') cleanPath codec net' z (f n') (f n).clients.length) {o' : Struct}
    (hr' : (goClient (goJson a' b') net' fmt' base' .getFanProfiles [] z).1 = .ok o') :
    ∃ i d pre rest, Confirmed (f n').sh.trace (.client i) (frame 0xCF d) pre rest ∧
      (NoCommand 0xCF rest → o'.lookup (m.toNat % 256) = some (.u32 (.ofNat (x.toNat % 256))) ∧
        o'.lookup (m.toNat % 256 + 5) = some (.u32 (.ofNat (x.toNat % 256)))) := by
  obtain ⟨i, mod, old, t, mode, pc, rfl, hm, hx, hm1, hm4, -, -, h1, -⟩ :=
    C103_profile U.toSettingUnit (run_reach T.run p) hp hb hr
  obtain rfl : mod = true := by simpa using hmod
  obtain ⟨bs, -, he, pre, rest, hc, -⟩ := h1 rfl
  obtain ⟨h2, h3⟩ := soon_go (by decide) U T hA hw hk (by simp [tier]) hn hnn hext hs hc hp' hb' hr'
  refine ⟨i, _, pre, _, h2, fun hno => ?_⟩
  obtain ⟨v, rfl, -, h5⟩ := h3 hno
  cases (show percentages v = bs from h5)
  rw [← hm, ← hx]
  have hmm : mode.toNat = 1 ∨ mode.toNat = 2 ∨ mode.toNat = 3 ∨ mode.toNat = 4 := by omega
  rcases hmm with e | e | e | e <;> rw [e] at he ⊢ <;> simp [entries, percentages] at he <;>
    simp [getAnswer, answerFields, FanProfiles.protobuf, List.lookup, he]

/-! ## Examples -/

/-- A network that brings responses to the call `g` only. -/
def relayOnly (g : Call) (s : Sys σ) : Net Unit where
  exchange snt v := (match router cleanPath snt.req with
    | .handler m f =>
      match codec.decode m f snt.req.body with
      | some c =>
        match (onlyTo g s c ()).1 with
        | some r => .ok (respond (goJson true true) toyWording f m snt.req r.http)
        | none => .error (lit "no answer")
      | none => .error (lit "no answer")
    | _ => .error (lit "no answer"), v)
  ctx _ := none
  msg _ := lit "error from intermediary"
  lib := lit "proto: cannot parse"
  close := none

theorem relayOnly_later {g : Call} {s : Sys σ} {n : Nat} (h : laterB g s n = true) :
    RelaysLater (goJson true true) cleanPath codec (relayOnly g s) () s n := by
  intro snt resp hx m f c hm hd
  simp only [relayOnly, (C53_routing cleanPath snt.req m f).2 hm, hd] at hx
  cases hr : (onlyTo g s c ()).1 with
  | none => rw [hr] at hx; cases hx
  | some r =>
    rw [hr] at hx
    cases hx
    obtain ⟨-, i, hi, ha⟩ := onlyTo_later h c r hr
    exact ⟨i, r, toyWording, hi, ha, rfl⟩

/-- The value of a field in what a call returned. -/
def fieldOf (x : Except GoErr Struct) (k : Nat) : Option Val :=
  match x with
  | .ok o => o.lookup k
  | .error _ => none

theorem fieldOf_sound {x : Except GoErr Struct} {k : Nat} {v : Val} (h : fieldOf x k = some v) :
    ∃ o, x = .ok o ∧ o.lookup k = some v := by
  cases x with
  | ok o => exact ⟨o, rfl, h⟩
  | error _ => cases h

/-- The execution of C111's example: `GetTemps` of a JSON client returns a struct, and C111 says which one. -/
example : ∃ o, (goClient (goJson true true) (relayOnly .getTemps (ticks 148)) .json lan .getTemps [] ()).1 = .ok o ∧
    o.lookup 1 = some (.f32 (f32Bits ventTemps.comfort)) ∧
    ∃ pl, decode .temps pl = some ventTemps ∧ GoStands .temps pl o := by
  obtain ⟨o, h1, h2⟩ := fieldOf_sound (k := 1) (v := .f32 (f32Bits ventTemps.comfort)) (x := (goClient (goJson true true)
    (relayOnly .getTemps (ticks 148)) .json lan .getTemps [] ()).1) (by decide +kernel)
  have noFlush : ∀ n, ∀ c ∈ (ticks n).clients, ∀ t, c.call ≠ .flush t := by
    intro n c hc t
    have : ∀ n, ((ticks n).clients.all fun c => c.call = .getTemps) = true :=
      ticks_all (P := fun s => (s.clients.all fun c => c.call = .getTemps) = true) (by decide +kernel)
    rw [of_decide_eq_true (List.all_eq_true.1 (this n) c hc)]
    exact nofun
  obtain ⟨pl, v, h3, rfl, h4⟩ := C111_go (j := 0) (p := 0) (n := 144) (n' := 148) (A := 10000000000) (id := .temps)
    (ext := (ticks 148).sh.trace) (P := (· = ventTemps)) ticks_timely
    (jobs_ticks ticks_timely.calls ticks_timely.run noFlush 0 1)
    (by intro id; cases id <;> decide +kernel) ticks_ticking (.head _) (by decide +kernel) (by omega)
    (by rw [show (ticks 0).sh.trace = [] from rfl, List.nil_append])
    (showsB_sound (by decide +kernel)) rfl (relayOnly_later (by decide +kernel)) h1
  exact ⟨o, h1, h2, pl, h3, h4⟩

set_option maxRecDepth 16000 in
/-- C112's first example in Go: `SetComfortTemp(25)` of a JSON client returns `Modified` though the unit could not be read
again, and half a minute later `GetTemps` of a protobuf client returns 25 °C. -/
example : ∃ o o', (goClient (goJson true true) (relay (shyPlay 19)) .json lan .setComfortTemp [(1, .u32 25)] ()).1 = .ok o ∧
    o.lookup 1 = some (.bool true) ∧
    (goClient (goJson true true) (relayOnly .getTemps (shyPlay 167)) .protobuf lan .getTemps [] ()).1 = .ok o' ∧
    (o'.lookup 1).bind floatOf = some 25 ∧
    ∃ i d pre rest, Confirmed (shyPlay 167).sh.trace (.client i) (frame 0xD3 d) pre rest ∧
      (NoCommand 0xD3 rest → (o'.lookup 1).bind floatOf = some (25 : Int)) := by
  obtain ⟨o, h1, h2⟩ := fieldOf_sound (k := 1) (v := .bool true)
    (x := (goClient (goJson true true) (relay (shyPlay 19)) .json lan .setComfortTemp [(1, .u32 25)] ()).1)
    (by decide +kernel)
  obtain ⟨o', h3, h4⟩ := fieldOf_sound (k := 1) (v := .f32 (f32Bits 25))
    (x := (goClient (goJson true true) (relayOnly .getTemps (shyPlay 167)) .protobuf lan .getTemps [] ()).1)
    (by decide +kernel)
  refine ⟨o, o', h1, h2, h3, by rw [h4]; decide +kernel, ?_⟩
  exact C112_go_comfort (f := shyPlay) (shyReport ventComfortReport) shy_cycles.timely
    shy_cycles.jobs (by intro id; cases id <;> decide +kernel) shy_cycles.ticking (p := 19) (n := 163) (n' := 167)
    (by decide +kernel) (by omega) (shy_cycles.ext (by omega)) (worksB_sound (by decide +kernel)) rfl
    (relay_relays (shyPlay 19)) h1 h2 rfl (relayOnly_later (by decide +kernel)) h3

set_option maxRecDepth 16000 in
/-- The same for `SetFanSpeed(2)`, after ten minutes. -/
example : ∃ o o', (goClient (goJson true true) (relay (shySpeedPlay 34)) .protobuf lan .setFanSpeed
      [(1, .u32 2), (2, .bool false)] ()).1 = .ok o ∧ o.lookup 1 = some (.bool true) ∧
    (goClient (goJson true true) (relayOnly .getProfiles (shySpeedPlay 86)) .json lan .getFanProfiles [] ()).1 = .ok o' ∧
    o'.lookup 12 = some (.u32 2) ∧
    ∃ i d pre rest, Confirmed (shySpeedPlay 86).sh.trace (.client i) (frame 0x99 d) pre rest ∧
      (NoCommand 0x99 rest → ∃ m, o.lookup 3 = some (.u32 m) ∧ o'.lookup 12 = some (.u32 m)) := by
  obtain ⟨o, h1, h2⟩ := fieldOf_sound (k := 1) (v := .bool true) (x := (goClient (goJson true true)
    (relay (shySpeedPlay 34)) .protobuf lan .setFanSpeed [(1, .u32 2), (2, .bool false)] ()).1) (by decide +kernel)
  obtain ⟨o', h3, h4⟩ := fieldOf_sound (k := 12) (v := .u32 2) (x := (goClient (goJson true true)
    (relayOnly .getProfiles (shySpeedPlay 86)) .json lan .getFanProfiles [] ()).1) (by decide +kernel)
  refine ⟨o, o', h1, h2, h3, h4, ?_⟩
  exact C112_go_speed (f := shySpeedPlay) (shyReport ventSpeedReport) shySpeed_cycles.timely
    shySpeed_cycles.jobs (by intro id; cases id <;> decide +kernel) shySpeed_cycles.ticking (p := 34) (n := 82) (n' := 86)
    (by decide +kernel) (by omega) (shySpeed_cycles.ext (by omega)) (worksB_sound (by decide +kernel)) rfl
    (relay_relays (shySpeedPlay 34)) h1 h2 rfl (relayOnly_later (by decide +kernel)) h3

set_option maxRecDepth 16000 in
/-- The same for `SetFanProfile(3, 40 %)`. -/
example : ∃ o o', (goClient (goJson true true) (relay (shyDevPlay 26)) .json lan .setFanProfile
      [(1, .u32 3), (2, .u32 40)] ()).1 = .ok o ∧ o.lookup 1 = some (.bool true) ∧
    (goClient (goJson true true) (relayOnly .getProfiles (shyDevPlay 78)) .json lan .getFanProfiles [] ()).1 = .ok o' ∧
    o'.lookup 3 = some (.u32 40) ∧
    ∃ i d pre rest, Confirmed (shyDevPlay 78).sh.trace (.client i) (frame 0xCF d) pre rest ∧
      (NoCommand 0xCF rest → o'.lookup 3 = some (.u32 40) ∧ o'.lookup 8 = some (.u32 40)) := by
  obtain ⟨o, h1, h2⟩ := fieldOf_sound (k := 1) (v := .bool true) (x := (goClient (goJson true true)
    (relay (shyDevPlay 26)) .json lan .setFanProfile [(1, .u32 3), (2, .u32 40)] ()).1) (by decide +kernel)
  obtain ⟨o', h3, h4⟩ := fieldOf_sound (k := 3) (v := .u32 40) (x := (goClient (goJson true true)
    (relayOnly .getProfiles (shyDevPlay 78)) .json lan .getFanProfiles [] ()).1) (by decide +kernel)
  refine ⟨o, o', h1, h2, h3, h4, ?_⟩
  exact C112_go_profile (f := shyDevPlay) (shyReport (profileReport deviceUnit)) shyDev_cycles.timely
    shyDev_cycles.jobs (by intro id; cases id <;> decide +kernel) shyDev_cycles.ticking (p := 26) (n := 74) (n' := 78)
    (by decide +kernel) (by omega) (shyDev_cycles.ext (by omega)) (worksB_sound (by decide +kernel)) rfl
    (relay_relays (shyDevPlay 26)) h1 h2 rfl (relayOnly_later (by decide +kernel)) h3

end Comfo.Props
