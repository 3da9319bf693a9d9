import Verif.Spec.GoClient
import Verif.Props.Proto
/-!
# The clients in Go: C78, C79
-/
namespace Comfo.Props
open Spec Comfo.Pb Comfo.Twirp

/-! ## Texts -/

theorem utf8_more {s t : List UInt8} (hs : validUtf8 s = true) (ht : validUtf8 t = true) :
    validUtf8 (s ++ t) = true := by
  fun_induction validUtf8 s <;>
    first
    | exact ht
    | cases hs; done
    | (rw [validUtf8.eq_def]; simp_all [List.cons_append]; done)
    | (rw [validUtf8.eq_def]; simp_all [List.cons_append]; grind)

set_option synthInstance.maxSize 2048 in
set_option synthInstance.maxHeartbeats 200000 in
theorem utf8_char (c : Char) : validUtf8 (strBytes [c]) = true := by
  have hv := c.valid
  have hn : c.toNat < 0xD800 ∨ (0xDFFF < c.toNat ∧ c.toNat < 0x110000) := hv
  simp only [strBytes, List.flatMap_cons, List.flatMap_nil, List.append_nil]
  generalize c.toNat = n at hn
  have cont : ∀ k : Nat, k < 64 → validUtf8.cont (UInt8.ofNat (0x80 + k)) = true := by decide
  split
  · rename_i h
    have : ∀ k : Nat, k < 128 → validUtf8 [UInt8.ofNat k] = true := by decide
    exact this n h
  split
  · rename_i h0 h
    have h1 : ∀ k : Nat, k < 32 → 2 ≤ k → ¬ UInt8.ofNat (0xC0 + k) < 0x80 ∧
        (0xC2 ≤ UInt8.ofNat (0xC0 + k) ∧ UInt8.ofNat (0xC0 + k) ≤ 0xDF) := by decide
    obtain ⟨e1, e2⟩ := h1 (n / 64) (by omega) (by omega)
    unfold validUtf8
    simp only [if_neg e1, if_pos e2, cont (n % 64) (by omega), validUtf8, Bool.and_self]
  split
  · rename_i h0 h1 h2
    have key : ∀ a : Nat, a < 16 → ∀ b : Nat, b < 64 → (a = 0 → 32 ≤ b) → (a = 13 → b < 32) →
        ∀ x, validUtf8.cont x = true →
        validUtf8 [UInt8.ofNat (0xE0 + a), UInt8.ofNat (0x80 + b), x] = true := by
      have e : ∀ a : Nat, a < 16 → ∀ b : Nat, b < 64 → (a = 0 → 32 ≤ b) → (a = 13 → b < 32) →
          ¬ UInt8.ofNat (0xE0 + a) < 0x80 ∧
          ¬ (0xC2 ≤ UInt8.ofNat (0xE0 + a) ∧ UInt8.ofNat (0xE0 + a) ≤ 0xDF) ∧
          (if UInt8.ofNat (0xE0 + a) = 0xE0 then
              (0xA0 ≤ UInt8.ofNat (0x80 + b) && UInt8.ofNat (0x80 + b) ≤ 0xBF) = true
            else if UInt8.ofNat (0xE0 + a) = 0xED then
              (0x80 ≤ UInt8.ofNat (0x80 + b) && UInt8.ofNat (0x80 + b) ≤ 0x9F) = true
            else (0xE1 ≤ UInt8.ofNat (0xE0 + a) ∧ UInt8.ofNat (0xE0 + a) ≤ 0xEF) ∧
              validUtf8.cont (UInt8.ofNat (0x80 + b)) = true) := by decide +kernel
      intro a ha b hb h3 h4 x hx
      obtain ⟨e1, e2, e3⟩ := e a ha b hb h3 h4
      unfold validUtf8
      simp only [if_neg e1, if_neg e2]
      split at e3
      · rename_i h5; simp only [if_pos h5]; rw [e3, hx]; rfl
      · rename_i h5
        split at e3
        · rename_i h6; simp only [if_neg h5, if_pos h6]; rw [e3, hx]; rfl
        · rename_i h6; simp only [if_neg h5, if_neg h6, if_pos e3.1]; rw [e3.2, hx]; rfl
    exact key (n / 4096) (by omega) (n / 64 % 64) (by omega) (by omega) (by omega) _
      (cont _ (by omega))
  · rename_i h0 h1 h2
    have key : ∀ a : Nat, a < 5 → ∀ b : Nat, b < 64 → (a = 0 → 16 ≤ b) → (a = 4 → b < 16) →
        ∀ x y, validUtf8.cont x = true → validUtf8.cont y = true →
        validUtf8 [UInt8.ofNat (0xF0 + a), UInt8.ofNat (0x80 + b), x, y] = true := by
      have e : ∀ a : Nat, a < 5 → ∀ b : Nat, b < 64 → (a = 0 → 16 ≤ b) → (a = 4 → b < 16) →
          ¬ UInt8.ofNat (0xF0 + a) < 0x80 ∧
          ¬ (0xC2 ≤ UInt8.ofNat (0xF0 + a) ∧ UInt8.ofNat (0xF0 + a) ≤ 0xDF) ∧
          UInt8.ofNat (0xF0 + a) ≠ 0xE0 ∧ UInt8.ofNat (0xF0 + a) ≠ 0xED ∧
          ¬ (0xE1 ≤ UInt8.ofNat (0xF0 + a) ∧ UInt8.ofNat (0xF0 + a) ≤ 0xEF) ∧
          (if UInt8.ofNat (0xF0 + a) = 0xF0 then
              (0x90 ≤ UInt8.ofNat (0x80 + b) && UInt8.ofNat (0x80 + b) ≤ 0xBF) = true
            else if UInt8.ofNat (0xF0 + a) = 0xF4 then
              (0x80 ≤ UInt8.ofNat (0x80 + b) && UInt8.ofNat (0x80 + b) ≤ 0x8F) = true
            else (0xF1 ≤ UInt8.ofNat (0xF0 + a) ∧ UInt8.ofNat (0xF0 + a) ≤ 0xF3) ∧
              validUtf8.cont (UInt8.ofNat (0x80 + b)) = true) := by decide +kernel
      intro a ha b hb h3 h4 x y hx hy
      obtain ⟨e1, e2, e3, e4, e5, e6⟩ := e a ha b hb h3 h4
      unfold validUtf8
      simp only [if_neg e1, if_neg e2, if_neg e3, if_neg e4, if_neg e5]
      split at e6
      · rename_i h5; simp only [if_pos h5]; rw [e6, hx, hy]; rfl
      · rename_i h5
        split at e6
        · rename_i h6; simp only [if_neg h5, if_pos h6]; rw [e6, hx, hy]; rfl
        · rename_i h6; simp only [if_neg h5, if_neg h6, if_pos e6.1]; rw [e6.2, hx, hy]; rfl
    exact key (n / 262144) (by omega) (n / 4096 % 64) (by omega) (by omega) (by omega) _ _
      (cont _ (by omega)) (cont _ (by omega))

theorem utf8_text (s : Str) : validUtf8 (strBytes s) = true := by
  induction s with
  | nil => rfl
  | cons c s ih =>
    have : strBytes (c :: s) = strBytes [c] ++ strBytes s := by simp [strBytes]
    rw [this]
    exact utf8_more (utf8_char c) ih

/-! ## Requests -/

theorem go_request (c : Call) (m : Method) (hm : c.method = some m) (ha : ArgFits c) :
    ∃ b, goMarshal (goInput m) (goArg c) = some b ∧ goRequest m b = some c := by
  have h0 : goMsg 0 = [] := by rw [goMsg_eq]; rfl
  have key : ∀ (m : Method) (c : Call) (vs : List Val) (bs : List UInt8),
      allOf (fun f => (goArg c).lookup f.num) (goMsg (goInput m)) = some vs →
      marshal (goMsg (goInput m)) vs = some bs → (∀ v ∈ vs, v.fits) → (∀ s, .str s ∉ vs) →
      goCall m (((goMsg (goInput m)).map (·.num)).zip vs) = c →
      ∃ b, goMarshal (goInput m) (goArg c) = some b ∧ goRequest m b = some c := by
    intro m c vs bs h1 h2 h3 h4 h5
    exact ⟨bs, by unfold goMarshal; rw [h1]; exact h2, go_decodes h2 h3 h4 h5⟩
  cases c <;> simp only [Call.method, Option.some.injEq, reduceCtorEq] at hm <;> subst hm
  case setSpeed a r =>
    have e : goMsg (goInput .setFanSpeed) = [pbField .uint32 "Abs" 1, pbField .bool "Rel" 2] := by
      rw [goMsg_eq]; rfl
    obtain ⟨bs, hb⟩ : ∃ bs, marshal (goMsg (goInput .setFanSpeed)) [.u32 a, .bool r] = some bs := by
      rw [e]; exact ⟨_, rfl⟩
    exact key _ _ _ bs (by rw [e]; rfl) hb (by simp [Val.fits]) (by simp) (by rw [e]; rfl)
  case setComfort t =>
    have e : goMsg (goInput .setComfortTemp) = [pbField .uint32 "ComfortTemp" 1] := by
      rw [goMsg_eq]; rfl
    obtain ⟨bs, hb⟩ : ∃ bs, marshal (goMsg (goInput .setComfortTemp)) [.u32 t] = some bs := by
      rw [e]; exact ⟨_, rfl⟩
    exact key _ _ _ bs (by rw [e]; rfl) hb (by simp [Val.fits]) (by simp) (by rw [e]; rfl)
  case setProfile a t =>
    have e : goMsg (goInput .setFanProfile) =
        [pbField .uint32 "Mode" 1, pbField .uint32 "TargetSpeed" 2] := by
      rw [goMsg_eq]; rfl
    obtain ⟨bs, hb⟩ : ∃ bs, marshal (goMsg (goInput .setFanProfile)) [.u32 a, .u32 t] = some bs := by
      rw [e]; exact ⟨_, rfl⟩
    exact key _ _ _ bs (by rw [e]; rfl) hb (by simp [Val.fits]) (by simp) (by rw [e]; rfl)
  case flush t =>
    have e : goMsg (goInput .flushCache) =
        [pbField (.enum ".comfo.api.FlushCacheRequest.CacheType".toList) "Cache" 1] := by
      rw [goMsg_eq]; rfl
    obtain ⟨bs, hb⟩ : ∃ bs, marshal (goMsg (goInput .flushCache)) [.enum t] = some bs := by
      rw [e]; exact ⟨_, rfl⟩
    exact key _ _ _ bs (by rw [e]; rfl) hb (by simpa [Val.fits, ArgFits] using ha) (by simp)
      (by rw [e]; rfl)
  all_goals
    exact key _ _ [] [] (by simp [goInput, h0, allOf]) (by simp [goInput, h0, marshal]) (by simp)
      (by simp) rfl

/-- Decoding in a Go client what a Go server has encoded. -/
theorem go_answer (m : Method) (r : Resp) (hm : Success m r) (hu : r.marshals = true)
    (hl : ShortName r) :
    goStruct m r = some (answerFields r) ∧
      ∃ b, goMarshal (goOutput m) (answerFields r) = some b ∧
        goUnmarshal (goOutput m) b = some (answerFields r) := by
  have key : ∀ (m : Method) (st : Struct) (vs : List Val) (bs : List UInt8),
      allOf (fun f => st.lookup f.num) (goMsg (goOutput m)) = some vs →
      marshal (goMsg (goOutput m)) vs = some bs → (∀ v ∈ vs, v.fits) →
      (∀ s, .str s ∈ vs → s.length < 2 ^ 64) → ((goMsg (goOutput m)).map (·.num)).zip vs = st →
      ∃ b, goMarshal (goOutput m) st = some b ∧ goUnmarshal (goOutput m) b = some st := by
    intro m st vs bs h1 h2 h3 h4 h5
    refine ⟨bs, by unfold goMarshal; rw [h1]; exact h2, ?_⟩
    unfold goUnmarshal
    rw [unmarshal_marshal h2 (goMsg_nums _).1 (goMsg_nums _).2 h3 h4, ← h5]
    rfl
  cases m <;> rcases r with a | a | a | a | a | a | a | a | a | a <;>
    (try cases a) <;> (try exact False.elim hm) <;> rename_i v <;> refine ⟨rfl, ?_⟩
  · have e : goMsg (goOutput .getBootInfo) = [pbField .uint32 "MajorVersion" 1,
        pbField .uint32 "MinorVersion" 2, pbField .uint32 "BetaVersion" 3,
        pbField .string "DeviceName" 4] := by rw [goMsg_eq]; rfl
    have hu : validUtf8 v.deviceName = true := hu
    have hl : v.deviceName.length < 2 ^ 64 := hl
    obtain ⟨bs, hb⟩ : ∃ bs, marshal (goMsg (goOutput .getBootInfo)) [.u32 v.majorVersion,
        .u32 v.minorVersion, .u32 v.betaVersion, .str v.deviceName] = some bs := by
      rw [e]; exact ⟨_, by simp only [marshal, encodeField, pbField, hu, if_true]; rfl⟩
    exact key _ _ _ bs (by rw [e]; rfl) hb (by simp [Val.fits]) (by simpa using hl) (by rw [e]; rfl)
  · have e : goMsg (goOutput .getTemps) = [pbField .float "Comfort" 1, pbField .float "OutsideAir" 2,
        pbField .float "SupplyAir" 3, pbField .float "InsideAir" 4, pbField .float "ExhaustAir" 5,
        pbField .float "GeoHeat" 6, pbField .float "Reheating" 7, pbField .float "KitchenHood" 8] := by
      rw [goMsg_eq]; rfl
    obtain ⟨bs, hb⟩ : ∃ bs, marshal (goMsg (goOutput .getTemps)) [.f32 (f32Bits v.comfort),
        .f32 (f32Bits v.outsideAir), .f32 (f32Bits v.supplyAir), .f32 (f32Bits v.insideAir),
        .f32 (f32Bits v.exhaustAir), .f32 (f32Bits v.geoHeat), .f32 (f32Bits v.reheating),
        .f32 (f32Bits v.kitchenHood)] = some bs := by
      rw [e]; exact ⟨_, rfl⟩
    exact key _ _ _ bs (by rw [e]; rfl) hb (by simp [Val.fits]) (by simp) (by rw [e]; rfl)
  · have e : goMsg (goOutput .getBypass) = [pbField .uint32 "Factor" 1, pbField .uint32 "Level" 2,
        pbField .uint32 "Correction" 3, pbField .bool "SummerMode" 4] := by rw [goMsg_eq]; rfl
    obtain ⟨bs, hb⟩ : ∃ bs, marshal (goMsg (goOutput .getBypass)) [.u32 v.factor, .u32 v.level,
        .u32 v.correction, .bool v.summerMode] = some bs := by rw [e]; exact ⟨_, rfl⟩
    exact key _ _ _ bs (by rw [e]; rfl) hb (by simp [Val.fits]) (by simp) (by rw [e]; rfl)
  · have e : goMsg (goOutput .getFans) = [pbField .uint32 "InPercent" 1,
        pbField .uint32 "OutPercent" 2, pbField .uint32 "InSpeed" 3, pbField .uint32 "OutSpeed" 4] := by
      rw [goMsg_eq]; rfl
    obtain ⟨bs, hb⟩ : ∃ bs, marshal (goMsg (goOutput .getFans)) [.u32 v.inPercent,
        .u32 v.outPercent, .u32 v.inSpeed, .u32 v.outSpeed] = some bs := by rw [e]; exact ⟨_, rfl⟩
    exact key _ _ _ bs (by rw [e]; rfl) hb (by simp [Val.fits]) (by simp) (by rw [e]; rfl)
  · have e : goMsg (goOutput .getFanProfiles) = [pbField .uint32 "OutAway" 1,
        pbField .uint32 "OutLow" 2, pbField .uint32 "OutMid" 3, pbField .uint32 "OutHigh" 4,
        pbField .bool "InFanActive" 5, pbField .uint32 "InAway" 6, pbField .uint32 "InLow" 7,
        pbField .uint32 "InMid" 8, pbField .uint32 "InHigh" 9, pbField .uint32 "CurrentOut" 10,
        pbField .uint32 "CurrentIn" 11, pbField .uint32 "CurrentMode" 12] := by rw [goMsg_eq]; rfl
    obtain ⟨bs, hb⟩ : ∃ bs, marshal (goMsg (goOutput .getFanProfiles)) [.u32 v.outAway,
        .u32 v.outLow, .u32 v.outMid, .u32 v.outHigh, .bool v.inFanActive, .u32 v.inAway,
        .u32 v.inLow, .u32 v.inMid, .u32 v.inHigh, .u32 v.currentOut, .u32 v.currentIn,
        .u32 v.currentMode] = some bs := by rw [e]; exact ⟨_, rfl⟩
    exact key _ _ _ bs (by rw [e]; rfl) hb (by simp [Val.fits]) (by simp) (by rw [e]; rfl)
  · have e : goMsg (goOutput .getErrors) = [pbField .bool "Filter" 1] := by rw [goMsg_eq]; rfl
    obtain ⟨bs, hb⟩ : ∃ bs, marshal (goMsg (goOutput .getErrors)) [.bool v.filter] = some bs := by
      rw [e]; exact ⟨_, rfl⟩
    exact key _ _ _ bs (by rw [e]; rfl) hb (by simp [Val.fits]) (by simp) (by rw [e]; rfl)
  · have e : goMsg (goOutput .setFanSpeed) = [pbField .bool "Modified" 1,
        pbField .uint32 "OriginalSpeed" 2, pbField .uint32 "TargetSpeed" 3,
        pbField .string "ReqTime" 4] := by rw [goMsg_eq]; rfl
    obtain ⟨hu, hl⟩ := durString_ok v.reqTime
    obtain ⟨bs, hb⟩ : ∃ bs, marshal (goMsg (goOutput .setFanSpeed)) [.bool v.modified,
        .u32 v.originalSpeed, .u32 v.targetSpeed, .str (durString v.reqTime)] = some bs := by
      rw [e]; exact ⟨_, by simp only [marshal, encodeField, pbField, hu, if_true]; rfl⟩
    exact key _ _ _ bs (by rw [e]; rfl) hb (by simp [Val.fits]) (by simpa using hl) (by rw [e]; rfl)
  · have e : goMsg (goOutput .setComfortTemp) = [pbField .bool "Modified" 1,
        pbField .uint32 "OriginalTemp" 2, pbField .uint32 "TargetTemp" 3,
        pbField .string "ReqTime" 4] := by rw [goMsg_eq]; rfl
    obtain ⟨hu, hl⟩ := durString_ok v.reqTime
    obtain ⟨bs, hb⟩ : ∃ bs, marshal (goMsg (goOutput .setComfortTemp)) [.bool v.modified,
        .u32 v.originalTemp, .u32 v.targetTemp, .str (durString v.reqTime)] = some bs := by
      rw [e]; exact ⟨_, by simp only [marshal, encodeField, pbField, hu, if_true]; rfl⟩
    exact key _ _ _ bs (by rw [e]; rfl) hb (by simp [Val.fits]) (by simpa using hl) (by rw [e]; rfl)
  · have e : goMsg (goOutput .setFanProfile) = [pbField .bool "Modified" 1,
        pbField .uint32 "OriginalSpeed" 2, pbField .uint32 "TargetSpeed" 3,
        pbField .string "ReqTime" 4] := by rw [goMsg_eq]; rfl
    obtain ⟨hu, hl⟩ := durString_ok v.reqTime
    obtain ⟨bs, hb⟩ : ∃ bs, marshal (goMsg (goOutput .setFanProfile)) [.bool v.modified,
        .u32 v.originalSpeed, .u32 v.targetSpeed, .str (durString v.reqTime)] = some bs := by
      rw [e]; exact ⟨_, by simp only [marshal, encodeField, pbField, hu, if_true]; rfl⟩
    exact key _ _ _ bs (by rw [e]; rfl) hb (by simp [Val.fits]) (by simpa using hl) (by rw [e]; rfl)
  · have e : goMsg (goOutput .flushCache) = [pbField .bool "Success" 1,
        pbField .string "ReqTime" 2] := by rw [goMsg_eq]; rfl
    obtain ⟨hu, hl⟩ := durString_ok v.reqTime
    obtain ⟨bs, hb⟩ : ∃ bs, marshal (goMsg (goOutput .flushCache)) [.bool v.success,
        .str (durString v.reqTime)] = some bs := by
      rw [e]; exact ⟨_, by simp only [marshal, encodeField, pbField, hu, if_true]; rfl⟩
    exact key _ _ _ bs (by rw [e]; rfl) hb (by simp [Val.fits]) (by simpa using hl) (by rw [e]; rfl)

/-- The URL of a method. -/
theorem go_url (base : Url) (m : Method) :
    ((urls base).getD (urlIndex m) (serviceURL base)).path = base.path ++ routeOf m ∧
    ((urls base).getD (urlIndex m) (serviceURL base)).host = base.host ∧
    ((urls base).getD (urlIndex m) (serviceURL base)).scheme =
      if base.scheme = [] then "http".toList else base.scheme := by
  have h1 : baseServicePath "/twirp".toList "comfo.api".toList "Comfo".toList =
      "/twirp/comfo.api.Comfo/".toList := by decide
  have h2 : ∀ s : String, ((serviceURL base).plus s).path =
      base.path ++ ("/twirp/comfo.api.Comfo/".toList ++ s.toList) ∧
      ((serviceURL base).plus s).host = base.host ∧
      ((serviceURL base).plus s).scheme = if base.scheme = [] then "http".toList else base.scheme := by
    intro s
    unfold Url.plus serviceURL sanitizeBaseURL
    rw [h1]
    split <;> simp
  cases m <;> exact h2 _

/-- The body of a request. -/
def bodyOf (J : JsonLib) (f : Fmt) (m : Method) (inp : Struct) : Option Bytes :=
  match f with
  | .protobuf => goMarshal (goInput m) inp
  | .json => J.encReq m inp

/-- The request a client sends. -/
def sentOf (base : Url) (f : Fmt) (m : Method) (body : Bytes) : Outgoing :=
  newRequest ((urls base).getD (urlIndex m) (serviceURL base)) body
    (match f with
      | .protobuf => "application/protobuf"
      | .json => "application/json")

/-- What a client makes of a response. -/
def resultOf (J : JsonLib) (n : Net ω) (f : Fmt) (m : Method) (resp : HttpRes) :
    Except TwErr Struct :=
  if resp.status ≠ 200 then .error (errorFromResponse J n.msg resp)
  else match f, resp.body with
    | .protobuf, .error e => .error (wrapInternal e "failed to read response body")
    | .json, .error e => .error (wrapInternal e "failed to unmarshal json response")
    | .protobuf, .ok bs =>
      match goUnmarshal (goOutput m) bs with
      | none => .error (wrapInternal n.lib "failed to unmarshal proto response")
      | some out => .ok out
    | .json, .ok bs =>
      match J.decRes m bs with
      | none => .error (wrapInternal n.lib "failed to unmarshal json response")
      | some out => .ok out

theorem go_effect (J : JsonLib) (n : Net ω) (f : Fmt) (base : Url) (m : Method) (inp : Struct)
    (w : ω) {b : Bytes} (hb : bodyOf J f m inp = some b) :
    (goClient J n f base m inp w).2 =
      if n.ctx 0 = none then (n.exchange (sentOf base f m b) w).2 else w := by
  cases f
  · have hb : J.encReq m inp = some b := hb
    unfold goClient doJSONRequest
    simp only [hb]
    cases n.ctx 0 with
    | some e => rfl
    | none =>
      show _ = (n.exchange (newRequest _ b "application/json") w).2
      simp only
      generalize n.exchange _ w = x
      obtain ⟨_ | resp, w'⟩ := x
      · rfl
      · simp only
        repeat' split
        all_goals rfl
  · have hb : goMarshal (goInput m) inp = some b := hb
    unfold goClient doProtobufRequest
    simp only [hb]
    cases n.ctx 0 with
    | some e => rfl
    | none =>
      show _ = (n.exchange (newRequest _ b "application/protobuf") w).2
      simp only
      generalize n.exchange _ w = x
      obtain ⟨_ | resp, w'⟩ := x
      · rfl
      · simp only
        repeat' split
        all_goals rfl

theorem go_result (J : JsonLib) (n : Net ω) (f : Fmt) (base : Url) (m : Method) (inp : Struct)
    (w : ω) {b : Bytes} (hb : bodyOf J f m inp = some b) (hn : Undisturbed n) {resp : HttpRes}
    (hx : (n.exchange (sentOf base f m b) w).1 = .ok resp) :
    (goClient J n f base m inp w).1 = resultOf J n f m resp := by
  cases f
  · have hb : J.encReq m inp = some b := hb
    have hx : (n.exchange (newRequest _ b "application/json") w).1 = .ok resp := hx
    unfold goClient doJSONRequest
    simp only [hb, hn.1, hn.2]
    generalize n.exchange _ w = x at hx
    obtain ⟨x, w'⟩ := x
    subst hx
    unfold resultOf
    simp only
    split
    · rfl
    · split <;> simp_all
      split <;> simp_all
  · have hb : goMarshal (goInput m) inp = some b := hb
    have hx : (n.exchange (newRequest _ b "application/protobuf") w).1 = .ok resp := hx
    unfold goClient doProtobufRequest
    simp only [hb, hn.1]
    generalize n.exchange _ w = x at hx
    obtain ⟨x, w'⟩ := x
    subst hx
    unfold resultOf
    simp only
    split
    · rfl
    · split <;> simp_all
      split <;> simp_all

/-! ## C78 -/

theorem go_body {J : JsonLib} {json : Method → Bytes → Option Call} (hJ : Lawful J json)
    (hj : ∀ {m b c}, json m b = some c → c.method = some m) (f : Fmt) {c : Call} {m : Method}
    (hm : c.method = some m) (ha : ArgFits c) :
    ∃ b, bodyOf J f m (goArg c) = some b ∧ (pbCodec json hj).decode m f b = some c := by
  cases f
  · exact hJ.req c m hm ha
  · exact go_request c m hm ha

theorem go_carries (clean : Str → Str) (hc : ∀ m, clean (routeOf m) = routeOf m) (cd : Codec)
    (cv : FloatConv) (base : Url) (hp : base.path = []) (f : Fmt) {c : Call} {m : Method} {b : Bytes}
    (hd : cd.decode m f b = some c) : Carries clean cd cv base f m c (sentOf base f m b) := by
  obtain ⟨h1, h2, h3⟩ := go_url base m
  rw [hp] at h1
  have hmf : MeantFor clean m f (sentOf base f m b).req := by
    refine ⟨rfl, h1, ?_, [], mediaName f, [], [], ?_, by simp, by simp, by cases f <;> decide,
      .inl rfl⟩
    · show clean ((urls base).getD (urlIndex m) (serviceURL base)).path = _
      rw [h1]
      exact (hc m).trans h1.symm
    · cases f <;> rfl
  refine ⟨h2, h3, hmf, ?_⟩
  rcases C53_handler clean cd cv _ _ _ hmf with ⟨h4, -⟩ | ⟨c', h4, -, h5⟩
  · have h4 : cd.decode m f b = none := h4
    rw [hd] at h4; cases h4
  · have h4 : cd.decode m f b = some c' := h4
    rw [hd] at h4; cases h4
    exact h5

/-- **C78** A Go client, protobuf or JSON, sends exactly one request for a call (none if the context
is done already), to the server of its base URL, and the server does for it exactly what the call
asks for. -/
theorem C78_request (J : JsonLib) (json : Method → Bytes → Option Call)
    (hj : ∀ {m b c}, json m b = some c → c.method = some m) (hJ : Lawful J json)
    (clean : Str → Str) (hc : ∀ m, clean (routeOf m) = routeOf m) (cv : FloatConv)
    (base : Url) (hp : base.path = []) (f : Fmt) (c : Call) (m : Method) (hm : c.method = some m)
    (ha : ArgFits c) :
    ∃ snt, Carries clean (pbCodec json hj) cv base f m c snt ∧
      ∀ (ω : Type) (n : Net ω) (w : ω), (goClient J n f base m (goArg c) w).2 =
        if n.ctx 0 = none then (n.exchange snt w).2 else w := by
  obtain ⟨b, h1, h2⟩ := go_body hJ hj f hm ha
  exact ⟨_, go_carries clean hc _ cv base hp f h2, fun ω n w => go_effect J n f base m _ w h1⟩

theorem respond_ok (J : JsonLib) (json : Method → Bytes → Option Call) (hJ : Lawful J json)
    (W : Wording) (n : Net ω) (f : Fmt) (m : Method) (q : HttpReq) (r : Resp) (hm : Success m r)
    (hu : r.marshals = true) (hl : ShortName r) (ht : ExactTemps r) :
    resultOf J n f m (respond J W f m q r.http) = .ok (answerFields r) := by
  obtain ⟨h1, b, h2, h3⟩ := go_answer m r hm hu hl
  have h4 : r.error? = none := by
    cases m <;> rcases r with a | a | a | a | a | a | a | a | a | a <;>
      (try cases a) <;> first | exact False.elim hm | rfl
  unfold Resp.http
  rw [if_pos hu]
  unfold respond
  simp only [h4, h1]
  cases f
  · obtain ⟨b, h5, h6⟩ := hJ.res m r _ h1 hu hl ht
    simp [encAnswer, h5, resultOf, h6]
  · simp [encAnswer, h2, resultOf, h3]

/-- **C78** What the server answers is what the client returns, every field of it, if the call is
not disturbed. -/
theorem C78_answer (J : JsonLib) (json : Method → Bytes → Option Call)
    (hj : ∀ {m b c}, json m b = some c → c.method = some m) (hJ : Lawful J json)
    (clean : Str → Str) (hc : ∀ m, clean (routeOf m) = routeOf m) (cv : FloatConv)
    (base : Url) (hp : base.path = []) (f : Fmt) (c : Call) (m : Method) (hm : c.method = some m)
    (ha : ArgFits c) :
    ∃ snt, Carries clean (pbCodec json hj) cv base f m c snt ∧
      ∀ (ω : Type) (n : Net ω) (w : ω) (W : Wording) (r : Resp), Undisturbed n → Success m r →
        r.marshals = true → ShortName r → ExactTemps r →
        (n.exchange snt w).1 = .ok (respond J W f m snt.req r.http) →
        (goClient J n f base m (goArg c) w).1 = .ok (answerFields r) := by
  obtain ⟨b, h1, h2⟩ := go_body hJ hj f hm ha
  refine ⟨_, go_carries clean hc _ cv base hp f h2, ?_⟩
  intro ω n w W r hn hs hu hl ht hx
  rw [go_result J n f base m _ w h1 hn hx]
  exact respond_ok J json hJ W n f m _ r hs hu hl ht

/-- What has been read from the unit can be sent, if its name is text. -/
theorem answer_sendable {S : Setup σ} {w : World σ} {s : Sys σ}
    (h : Reachable S (Sys.initial w) s) {i : Nat} {c : Call} {r : Resp} {m : Method}
    (ha : Answered s i c r) (hm : c.method = some m) (hok : Success m r)
    (h0 : (getAnswer .boot w.boot.val).marshals = true ∧ ShortName (getAnswer .boot w.boot.val) ∧
      ExactTemps (getAnswer .temps w.temps.val))
    (hu : c = .getBoot → ∀ t q, (t, Act.got true (q, none)) ∈ s.sh.trace → q.command = 0x68 →
      validUtf8 (q.data.drop 3) = true) : r.marshals = true ∧ ShortName r ∧ ExactTemps r := by
  by_cases hb : c = .getBoot
  · subst hb
    cases hm
    obtain ⟨v, rfl, hv⟩ := served_from (id := .boot) h ha
    rcases hv with rfl | ⟨t, q, h1, h2, h3⟩
    · exact ⟨h0.1, h0.2.1, trivial⟩
    · exact ⟨utf8_decoded h3 (hu rfl t q h1 h2), short_decoded h3, trivial⟩
  · by_cases ht : c = .getTemps
    · subst ht
      cases hm
      obtain ⟨v, rfl, hv⟩ := served_from (id := .temps) h ha
      rcases hv with rfl | ⟨t, q, h1, h2, h3⟩
      · exact ⟨rfl, trivial, h0.2.2⟩
      · exact ⟨rfl, trivial, exact_decoded h3⟩
    · cases c <;> simp only [Call.method, Option.some.injEq, reduceCtorEq] at hm <;> subst hm <;>
        rcases r with a | a | a | a | a | a | a | a | a | a <;> (try cases a) <;> first
        | exact False.elim hok
        | exact absurd rfl hb
        | exact absurd rfl ht
        | exact ⟨rfl, trivial, trivial⟩

/-- **C78** In every execution: a client whose call was answered with success returns that answer. -/
theorem C78_delivered (J : JsonLib) (json : Method → Bytes → Option Call)
    (hj : ∀ {m b c}, json m b = some c → c.method = some m) (hJ : Lawful J json)
    (clean : Str → Str) (hc : ∀ m, clean (routeOf m) = routeOf m)
    (base : Url) (hp : base.path = []) (f : Fmt) {S : Setup σ} {w : World σ} {s : Sys σ}
    (h : Reachable S (Sys.initial w) s) {i : Nat} {c : Call} {r : Resp} {m : Method}
    (hA : Answered s i c r) (hm : c.method = some m) (hok : Success m r) (ha : ArgFits c)
    (h0 : (getAnswer .boot w.boot.val).marshals = true ∧ ShortName (getAnswer .boot w.boot.val) ∧
      ExactTemps (getAnswer .temps w.temps.val))
    (hu : c = .getBoot → ∀ t q, (t, Act.got true (q, none)) ∈ s.sh.trace → q.command = 0x68 →
      validUtf8 (q.data.drop 3) = true) :
    ∃ snt, Carries clean (pbCodec json hj) S.cv base f m c snt ∧
      ∀ (ω : Type) (n : Net ω) (w : ω) (W : Wording), Undisturbed n →
        (n.exchange snt w).1 = .ok (respond J W f m snt.req r.http) →
        (goClient J n f base m (goArg c) w).1 = .ok (answerFields r) := by
  obtain ⟨h1, h2, ht⟩ := answer_sendable h hA hm hok h0 hu
  obtain ⟨snt, h3, h4⟩ := C78_answer J json hj hJ clean hc S.cv base hp f c m hm ha
  exact ⟨snt, h3, fun ω n w W hn hx => h4 ω n w W r hn hok h1 h2 ht hx⟩

theorem route_end {p : Str} {m m' : Method} (h : p ++ routeOf m = routeOf m') : p = [] := by
  have last : ∀ (a b x y : Str), '/' ∉ x → '/' ∉ y → a ++ '/' :: x = b ++ '/' :: y → a = b := by
    intro a
    induction a with
    | nil =>
      intro b x y hx hy he
      cases b with
      | nil => rfl
      | cons z b =>
        simp only [List.nil_append, List.cons_append, List.cons.injEq] at he
        exact absurd (by rw [he.2]; simp) hx
    | cons z a ih =>
      intro b x y hx hy he
      cases b with
      | nil =>
        simp only [List.nil_append, List.cons_append, List.cons.injEq] at he
        exact absurd (by rw [← he.2]; simp) hy
      | cons z' b =>
        simp only [List.cons_append, List.cons.injEq] at he
        rw [he.1, ih b x y hx hy he.2]
  have e : ∀ m, routeOf m = "/twirp/comfo.api.Comfo".toList ++ '/' :: methodName m := fun m => rfl
  rw [e, e, ← List.append_assoc] at h
  have := congrArg List.length (last _ _ _ _ (slash_name m) (slash_name m') h)
  simp only [List.length_append] at this
  exact List.length_eq_zero_iff.1 (by omega)

/-- **C78** A base URL must not have a path, not even a slash at the end: then no call of a client
does anything at the server, and every call returns an error. -/
theorem C78_base_path (J : JsonLib) (json : Method → Bytes → Option Call)
    (hj : ∀ {m b c}, json m b = some c → c.method = some m) (hJ : Lawful J json)
    (clean : Str → Str) (cv : FloatConv) (base : Url) (hp : base.path ≠ []) (f : Fmt) (c : Call)
    (m : Method) (hm : c.method = some m) (ha : ArgFits c) :
    ∃ snt a, serve clean (pbCodec json hj) cv snt.req = .ret a ∧
      ∀ (ω : Type) (n : Net ω) (w : ω) (W : Wording),
        (goClient J n f base m (goArg c) w).2 =
          (if n.ctx 0 = none then (n.exchange snt w).2 else w) ∧
        (Undisturbed n → (n.exchange snt w).1 = .ok (respond J W f m snt.req a) →
          ∃ e, (goClient J n f base m (goArg c) w).1 = .error e) := by
  obtain ⟨b, h1, -⟩ := go_body hJ hj f hm ha
  have hn : ¬ ∃ m' f', MeantFor clean m' f' (sentOf base f m b).req := by
    rintro ⟨m', f', -, h2, -⟩
    have h3 : ((urls base).getD (urlIndex m) (serviceURL base)).path = routeOf m' := h2
    rw [(go_url base m).1] at h3
    exact hp (route_end h3)
  have key : ∀ a, (a = .redirect ∨ a = .badRoute ∨ a = .notFound) →
      serve clean (pbCodec json hj) cv (sentOf base f m b).req = .ret a →
      ∃ snt a, serve clean (pbCodec json hj) cv snt.req = .ret a ∧
      ∀ (ω : Type) (n : Net ω) (w : ω) (W : Wording),
        (goClient J n f base m (goArg c) w).2 =
          (if n.ctx 0 = none then (n.exchange snt w).2 else w) ∧
        (Undisturbed n → (n.exchange snt w).1 = .ok (respond J W f m snt.req a) →
          ∃ e, (goClient J n f base m (goArg c) w).1 = .error e) := by
    intro a ha hs
    refine ⟨sentOf base f m b, a, hs, fun ω n w W => ⟨go_effect J n f base m _ w h1, ?_⟩⟩
    intro hu hx
    rw [go_result J n f base m _ w h1 hu hx]
    have : (respond J W f m (sentOf base f m b).req a).status ≠ 200 := by
      rcases ha with rfl | rfl | rfl
      · show (301 : Nat) ≠ 200; decide
      · show (404 : Nat) ≠ 200; decide
      · show (404 : Nat) ≠ 200; decide
    exact ⟨_, by unfold resultOf; rw [if_pos this]⟩
  rcases C53_otherwise_untouched clean (pbCodec json hj) cv _ hn with ⟨-, h⟩ | ⟨-, -, h⟩ | ⟨-, -, h⟩
  · exact key _ (.inl rfl) h
  · exact key _ (.inr (.inl rfl)) h
  · exact key _ (.inr (.inr rfl)) h

/-! ## C79 -/

theorem code_ok (c : Code) : Code.ofName c.name = some c ∧ validUtf8 c.name = true ∧ c.name ≠ [] ∧
    c.status ≠ 200 ∧ isHTTPRedirect c.status = false := by
  cases c <;> decide +kernel

theorem metas_fold (l : List (Bytes × Bytes)) (e : TwErr) :
    l.reverse.foldl (fun e kv => e.withMeta kv.1 kv.2) e = { e with metas := l ++ e.metas } := by
  induction l generalizing e with
  | nil => rfl
  | cons kv l ih =>
    rw [List.reverse_cons, List.foldl_append, ih]
    rfl

/-- An error that is sent is the error that is received. -/
theorem wire_error {J : JsonLib} {json : Method → Bytes → Option Call} (hJ : Lawful J json)
    (msg : Nat → Bytes) (e : TwErr) (ht : IsText e) (hl : e.msg.length ≤ 1000000) :
    SameError (errorFromResponse J msg (writeError J e)) e := by
  obtain ⟨h1, h2, h3, -, h5⟩ := code_ok e.code
  obtain ⟨b, t, k1, k2, k3, k4, k5⟩ := hJ.err ⟨e.code.name, e.msg, e.metas⟩ ⟨h2, ht.1, ht.2⟩
  have hm : marshalErrorToJSON J e = b := by
    unfold marshalErrorToJSON
    rw [if_neg (by omega)]
    simp only [k1]
  have he : errorFromResponse J msg (writeError J e) = ⟨e.code, e.msg, t.metas⟩ := by
    unfold errorFromResponse writeError
    simp only [h5, hm, k2, k3, k4, h3, h1, metas_fold]
    simp [newError]
  rw [he]
  exact ⟨rfl, rfl, fun k => by unfold TwErr.get; rw [k5]⟩

theorem result_error (J : JsonLib) (n : Net ω) (f : Fmt) (m : Method) (e : TwErr) :
    resultOf J n f m (writeError J e) = .error (errorFromResponse J n.msg (writeError J e)) := by
  have : (writeError J e).status ≠ 200 := (code_ok e.code).2.2.2.1
  unfold resultOf
  rw [if_pos this]

theorem refusal_text (r : Refusal) : validUtf8 r.argument = true ∧ validUtf8 r.validationMsg = true ∧
    r.argument.length + 1 + r.validationMsg.length ≤ 1000000 := by
  cases r with
  | speedRange v =>
    obtain ⟨h1, h2⟩ := digits_ok 20 v.toNat
    refine ⟨show validUtf8 (lit "FanSpeed") = true by decide +kernel, ?_, ?_⟩
    · show validUtf8 (lit "value '" ++ digits 20 v.toNat ++ lit "' out of range") = true
      rw [List.append_assoc]
      exact utf8_more (by decide +kernel) (utf8_append h1 (by decide +kernel))
    · show (lit "FanSpeed").length + 1 +
        (lit "value '" ++ digits 20 v.toNat ++ lit "' out of range").length ≤ _
      have e1 : (lit "FanSpeed").length = 8 := by decide +kernel
      have e2 : (lit "value '").length = 7 := by decide +kernel
      have e3 : (lit "' out of range").length = 14 := by decide +kernel
      rw [List.length_append, List.length_append, e1, e2, e3]
      omega
  | _ => exact ⟨by decide +kernel, by decide +kernel, by decide +kernel⟩

theorem error_text {W : Wording} {x : SrvErr} (h : x ≠ .lib .io) :
    validUtf8 (errorText W x) = true ∧ validUtf8 (errorType W x) = true ∧
      (errorText W x).length ≤ 1000000 := by
  rcases x with e | _
  · cases e <;> first
      | exact absurd rfl h
      | (simp only [errorText, errorType]; exact ⟨by decide +kernel, by decide +kernel, by decide +kernel⟩)
  · simp only [errorText, errorType]; exact ⟨by decide +kernel, by decide +kernel, by decide +kernel⟩

theorem handler_text {W : Wording} {m : Method} {e : Comfo.Twirp} (h : TextOf W e) :
    IsText (handlerError W m e) ∧ (handlerError W m e).msg.length ≤ 1000000 := by
  cases e with
  | invalidArgument a =>
    obtain ⟨h1, h2, h3⟩ := refusal_text a
    refine ⟨⟨utf8_more (utf8_more h1 (by decide +kernel)) h2, ?_⟩, ?_⟩
    · intro kv hkv
      simp only [handlerError, invalidArgumentError, TwErr.withMeta, newError,
        List.mem_singleton] at hkv
      subst hkv
      exact ⟨show validUtf8 (lit "argument") = true by decide +kernel, h1⟩
    · simp only [handlerError, invalidArgumentError, TwErr.withMeta, newError, List.length_append]
      have : (lit " ").length = 1 := rfl
      omega
  | internal x =>
    have hx : validUtf8 (errorText W x) = true ∧ validUtf8 (errorType W x) = true ∧
        (errorText W x).length ≤ 1000000 := by
      by_cases hio : x = .lib .io
      · subst hio; exact h rfl
      · exact error_text hio
    obtain ⟨h1, h2, h3⟩ := hx
    unfold handlerError
    simp only
    split
    · refine ⟨⟨h1, ?_⟩, h3⟩
      intro kv hkv
      simp only [internalErrorWith, TwErr.withMeta, newError, List.mem_singleton] at hkv
      subst hkv
      exact ⟨show validUtf8 (lit "cause") = true by decide +kernel, h2⟩
    · exact ⟨⟨h1, fun kv hkv => by cases hkv⟩, h3⟩

theorem handler_seen {W : Wording} {m : Method} {e : Comfo.Twirp} {e' : TwErr}
    (h : SameError e' (handlerError W m e)) : ErrorFor W e e' := by
  obtain ⟨h1, h2, h3⟩ := h
  cases e with
  | invalidArgument a =>
    have ea : a.argument = lit (refused a) := by cases a <;> rfl
    refine ⟨h1, h2.trans ?_, ?_⟩
    · simp [handlerError, invalidArgumentError, TwErr.withMeta, newError, ea]
    · rw [h3]
      simp [handlerError, invalidArgumentError, TwErr.get, TwErr.withMeta, ea]
  | internal x =>
    unfold handlerError at h1 h2
    simp only at h1 h2
    split at h1 <;> simp_all [ErrorFor, internalErrorWith, TwErr.withMeta, newError]

/-- **C79** An error of a handler is what the client returns: with its code, its text and the name of
the argument it is about. Its HTTP status is the documented one. -/
theorem C79_error (J : JsonLib) (json : Method → Bytes → Option Call)
    (hj : ∀ {m b c}, json m b = some c → c.method = some m) (hJ : Lawful J json)
    (clean : Str → Str) (hc : ∀ m, clean (routeOf m) = routeOf m) (cv : FloatConv)
    (base : Url) (hp : base.path = []) (f : Fmt) (c : Call) (m : Method) (hm : c.method = some m)
    (ha : ArgFits c) :
    ∃ snt, Carries clean (pbCodec json hj) cv base f m c snt ∧
      ∀ (ω : Type) (n : Net ω) (w : ω) (W : Wording) (r : Resp) (e : Comfo.Twirp) (res : HttpRes),
        Undisturbed n → r.error? = some e → TextOf W e →
        res = respond J W f m snt.req r.http → (n.exchange snt w).1 = .ok res →
        ∃ e', (goClient J n f base m (goArg c) w).1 = .error e' ∧ ErrorFor W e e' ∧
          documentedStatus e'.code = some res.status := by
  obtain ⟨b, h1, h2⟩ := go_body hJ hj f hm ha
  refine ⟨_, go_carries clean hc _ cv base hp f h2, ?_⟩
  intro ω n w W r e res hn he ht hres hx
  have hr : r.http = .answer r := by
    unfold Resp.http
    rw [if_pos]
    rcases r with a | a | a | a | a | a | a | a | a | a <;> (try cases a) <;> first | rfl | cases he
  have hw : res = writeError J (handlerError W m e) := by
    rw [hres, hr]
    unfold respond
    simp only [he]
  subst hw
  obtain ⟨t1, t2⟩ := handler_text (m := m) ht
  have hs := wire_error hJ n.msg _ t1 t2
  refine ⟨errorFromResponse J n.msg (writeError J (handlerError W m e)), ?_, handler_seen hs, ?_⟩
  · rw [go_result J n f base m _ w h1 hn hx]
    exact result_error J n f m _
  · rw [hs.1]
    cases e with
    | invalidArgument a => rfl
    | internal x =>
      simp only [handlerError]
      split <;> rfl

/-- **C79** The HTTP statuses of the other errors are the documented ones, too; pages that do not exist
are not found. -/
theorem C79_status (J : JsonLib) (W : Wording) (f : Fmt) (m : Method) (r : HttpReq) :
    documentedStatus .malformed = some (respond J W f m r .malformed).status ∧
    documentedStatus .badRoute = some (respond J W f m r .badRoute).status ∧
    documentedStatus .internal = some (respond J W f m r .marshalFailed).status ∧
    (respond J W f m r .notFound).status = 404 := by
  cases f <;> exact ⟨rfl, rfl, rfl, rfl⟩

/-- **C79** Requests that reach no handler, or whose answer cannot be sent, return an error that says
so. -/
theorem C79_refused (J : JsonLib) (json : Method → Bytes → Option Call)
    (hj : ∀ {m b c}, json m b = some c → c.method = some m) (hJ : Lawful J json)
    (base : Url) (f : Fmt) (c : Call) (m : Method) (hm : c.method = some m) (ha : ArgFits c) :
    ∃ snt : Outgoing, snt.req.method = "POST".toList ∧ snt.req.path = base.path ++ routeOf m ∧
      ∀ (ω : Type) (n : Net ω) (w : ω) (W : Wording) (a : HttpAns), Undisturbed n →
        validUtf8 (W.route snt.req) = true → (W.route snt.req).length ≤ 1000000 →
        validUtf8 W.encoder = true → W.encoder.length ≤ 999900 → J.decErr W.notFound = none →
        (n.exchange snt w).1 = .ok (respond J W f m snt.req a) → (∀ r, a ≠ .answer r) →
        ∃ e, (goClient J n f base m (goArg c) w).1 = .error e ∧
          (a = .malformed → e.code = .malformed) ∧
          (a = .badRoute → e.code = .badRoute ∧ e.msg = W.route snt.req ∧
            e.get (lit "twirp_invalid_route") =
              strBytes ("POST ".toList ++ base.path ++ routeOf m)) ∧
          (a = .marshalFailed → e.code = .internal) ∧
          (a = .notFound → e.code = .badRoute ∧
            e.get (lit "http_error_from_intermediary") = lit "true") ∧
          (a = .redirect → e.code = .internal ∧ e.get (lit "location") = W.location snt.req) := by
  obtain ⟨b, h1, h2⟩ := go_body hJ hj f hm ha
  refine ⟨sentOf base f m b, rfl, (go_url base m).1, ?_⟩
  intro ω n w W a hn hr1 hr2 he1 he2 hnf hx hna
  rw [go_result J n f base m _ w h1 hn hx]
  have wire : ∀ e0 : TwErr, IsText e0 → e0.msg.length ≤ 1000000 →
      respond J W f m (sentOf base f m b).req a = writeError J e0 →
      ∃ e, resultOf J n f m (respond J W f m (sentOf base f m b).req a) = .error e ∧
        SameError e e0 := by
    intro e0 t1 t2 he
    refine ⟨errorFromResponse J n.msg (writeError J e0), ?_, wire_error hJ n.msg _ t1 t2⟩
    rw [he]
    exact result_error J n f m _
  cases a with
  | answer r => exact absurd rfl (hna r)
  | malformed =>
    have : ∃ e0 : TwErr, IsText e0 ∧ e0.msg.length ≤ 1000000 ∧ e0.code = .malformed ∧
        respond J W f m (sentOf base f m b).req .malformed = writeError J e0 := by
      cases f
      · exact ⟨_, ⟨by decide +kernel, fun _ h => by cases h⟩, by decide +kernel, rfl, rfl⟩
      · exact ⟨_, ⟨by decide +kernel, fun _ h => by cases h⟩, by decide +kernel, rfl, rfl⟩
    obtain ⟨e0, t1, t2, t3, t4⟩ := this
    obtain ⟨e, k1, k2⟩ := wire e0 t1 t2 t4
    exact ⟨e, k1, fun _ => k2.1.trans t3, nofun, nofun, nofun, nofun⟩
  | badRoute =>
    have hpath : (sentOf base f m b).req.path = base.path ++ routeOf m := (go_url base m).1
    obtain ⟨e, k1, k2, k3, k4⟩ := wire _ ⟨hr1, by
      intro kv hkv
      simp only [badRouteError, TwErr.withMeta, newError, List.mem_singleton] at hkv
      subst hkv
      exact ⟨show validUtf8 (lit "twirp_invalid_route") = true by decide +kernel,
        utf8_more (utf8_more (utf8_text _) (by decide)) (utf8_text _)⟩⟩ hr2 rfl
    refine ⟨e, k1, nofun, fun _ => ⟨k2, k3, ?_⟩, nofun, nofun, nofun⟩
    rw [k4]
    show strBytes "POST".toList ++ lit " " ++ strBytes (sentOf base f m b).req.path = _
    rw [hpath]
    have : ∀ a b : Str, strBytes (a ++ b) = strBytes a ++ strBytes b := by simp [strBytes]
    have h5 : strBytes "POST ".toList = strBytes "POST".toList ++ lit " " := by decide
    rw [List.append_assoc "POST ".toList, this "POST ".toList, h5]
  | marshalFailed =>
    have : ∃ e0 : TwErr, IsText e0 ∧ e0.msg.length ≤ 1000000 ∧ e0.code = .internal ∧
        respond J W f m (sentOf base f m b).req .marshalFailed = writeError J e0 := by
      have key : ∀ pre : String, validUtf8 (lit pre ++ lit ": ") = true →
          (lit pre ++ lit ": ").length ≤ 100 → IsText (wrapInternal W.encoder pre) ∧
          (wrapInternal W.encoder pre).msg.length ≤ 1000000 ∧
          (wrapInternal W.encoder pre).code = .internal := by
        intro pre p1 p2
        refine ⟨⟨utf8_more p1 he1, ?_⟩, ?_, rfl⟩
        · intro kv hkv
          simp only [wrapInternal, internalErrorWith, TwErr.withMeta, newError,
            List.mem_singleton] at hkv
          subst hkv
          exact ⟨by decide +kernel, by decide +kernel⟩
        · show ((lit pre ++ lit ": ") ++ W.encoder).length ≤ _
          rw [List.length_append]
          omega
      cases f
      · obtain ⟨q1, q2, q3⟩ := key "failed to marshal json response" (by decide +kernel)
          (by decide +kernel)
        exact ⟨_, q1, q2, q3, rfl⟩
      · obtain ⟨q1, q2, q3⟩ := key "failed to marshal proto response" (by decide +kernel)
          (by decide +kernel)
        exact ⟨_, q1, q2, q3, rfl⟩
    obtain ⟨e0, t1, t2, t3, t4⟩ := this
    obtain ⟨e, k1, k2⟩ := wire e0 t1 t2 t4
    exact ⟨e, k1, nofun, nofun, fun _ => k2.1.trans t3, nofun, nofun⟩
  | notFound =>
    refine ⟨errorFromIntermediary 404 (n.msg 404) W.notFound, ?_, nofun, nofun, nofun,
      fun _ => ⟨rfl, ?_⟩, nofun⟩
    · simp [respond, resultOf, errorFromResponse, isHTTPRedirect, hnf]
    · simp [errorFromIntermediary, isHTTPRedirect, TwErr.withMeta, TwErr.get, List.lookup, newError,
        show (lit "http_error_from_intermediary" == lit "body") = false by decide +kernel,
        show (lit "http_error_from_intermediary" == lit "status_code") = false by decide +kernel]
  | redirect =>
    refine ⟨errorFromIntermediary 301 (n.msg 301) (W.location (sentOf base f m b).req), ?_, nofun,
      nofun, nofun, nofun, fun _ => ⟨rfl, ?_⟩⟩
    · simp [respond, resultOf, errorFromResponse, isHTTPRedirect]
    · simp [errorFromIntermediary, isHTTPRedirect, TwErr.withMeta, TwErr.get]

/-- The server makes responses with status 200 only from successful answers of the handler. -/
theorem respond_200 {J : JsonLib} {f : Fmt} {m : Method} {resp : HttpRes} {b : Bytes}
    (h200 : resp.status = 200) (hbody : resp.body = .ok b) (W : Wording) (q : HttpReq) (a : HttpAns)
    (hq : resp = respond J W f m q a) :
    ∃ r st, a = .answer r ∧ Success m r ∧ goStruct m r = some st ∧ encAnswer J f m st = some b := by
  subst hq
  have no : ∀ e, (writeError J e).status ≠ 200 := fun e => (code_ok e.code).2.2.2.1
  cases a with
  | redirect => exact absurd (show (301 : Nat) = 200 from h200) (by decide)
  | notFound => exact absurd (show (404 : Nat) = 200 from h200) (by decide)
  | badRoute => exact absurd h200 (no _)
  | malformed =>
    cases f
    · exact absurd h200 (no _)
    · exact absurd h200 (no _)
  | marshalFailed => exact absurd h200 (no _)
  | answer r =>
    unfold respond at h200 hbody
    simp only at h200 hbody
    split at h200
    · exact absurd h200 (no _)
    · rename_i he
      rw [he] at hbody
      simp only at hbody
      split at h200
      · exact absurd h200 (no _)
      · rename_i st hst
        rw [hst] at hbody
        simp only at hbody
        have henc : encAnswer J f m st = some b := by
          split at h200
          · exact absurd h200 (no _)
          · rename_i b' hb'
            rw [hb'] at hbody
            simp only [Except.ok.injEq] at hbody
            rw [hb', hbody]
        refine ⟨r, st, rfl, ?_, hst, henc⟩
        clear h200 hbody henc he
        cases m <;> rcases r with a | a | a | a | a | a | a | a | a | a <;>
          (try cases a) <;> first | trivial | cases hst

/-- A call that returns no error has sent its request, and a response has come. -/
theorem go_ok {J : JsonLib} {n : Net ω} {f : Fmt} {base : Url} {m : Method} {inp : Struct} {w : ω}
    {s : Struct} (h : (goClient J n f base m inp w).1 = .ok s) :
    n.ctx 0 = none ∧ n.ctx 1 = none ∧ n.ctx 2 = none ∧
    ∃ body resp b, bodyOf J f m inp = some body ∧ (n.exchange (sentOf base f m body) w).1 = .ok resp ∧
      resp.status = 200 ∧ resp.body = .ok b ∧ Decodes J f m b s := by
  cases f
  · unfold goClient doJSONRequest at h
    simp only at h
    repeat' split at h
    all_goals first
      | cases h
      | skip
    rename_i _ body hb _ c0 _ resp w' hx _ c1 h200 _ bs hbody _ _ c2 _ _ hd
    exact ⟨c0, c1, c2, body, resp, bs, hb, congrArg Prod.fst hx, Classical.not_not.1 h200, hbody, hd⟩
  · unfold goClient doProtobufRequest at h
    simp only at h
    repeat' split at h
    all_goals first
      | cases h
      | skip
    rename_i _ body hb _ c0 _ resp w' hx _ c1 h200 _ bs hbody _ c2 _ hd
    exact ⟨c0, c1, c2, body, resp, bs, hb, congrArg Prod.fst hx, Classical.not_not.1 h200, hbody, hd⟩

/-- **C79** No failure is taken for success: a call returns no error only if the context was never
done and a response with status 200 and a body that can be decoded has come; and the server makes
such responses only from successful answers of the handler, whose encoding is the body. -/
theorem C79_success (J : JsonLib) (n : Net ω) (f : Fmt) (base : Url) (m : Method) (inp : Struct)
    (w : ω) (s : Struct) (h : (goClient J n f base m inp w).1 = .ok s) :
    n.ctx 0 = none ∧ n.ctx 1 = none ∧ n.ctx 2 = none ∧
    ∃ snt resp b, (n.exchange snt w).1 = .ok resp ∧ resp.status = 200 ∧ resp.body = .ok b ∧
      Decodes J f m b s ∧
      ∀ (W : Wording) (q : HttpReq) (a : HttpAns), resp = respond J W f m q a →
        ∃ r st, a = .answer r ∧ Success m r ∧ goStruct m r = some st ∧
          encAnswer J f m st = some b := by
  obtain ⟨c0, c1, c2, body, resp, b, -, hx, h200, hb, hd⟩ := go_ok h
  exact ⟨c0, c1, c2, _, resp, b, hx, h200, hb, hd, respond_200 h200 hb⟩

/-- **C79** Responses with another status that are not from a Twirp server (of a proxy, say) become
errors with the documented codes, and what came is in the metadata. -/
theorem C79_intermediary (J : JsonLib) (json : Method → Bytes → Option Call)
    (hj : ∀ {m b c}, json m b = some c → c.method = some m) (hJ : Lawful J json)
    (base : Url) (f : Fmt) (c : Call) (m : Method) (hm : c.method = some m) (ha : ArgFits c) :
    ∃ snt : Outgoing, ∀ (ω : Type) (n : Net ω) (w : ω) (resp : HttpRes) (b : Bytes),
      Undisturbed n → (n.exchange snt w).1 = .ok resp → resp.status ≠ 200 → resp.status < 1000 →
      resp.body = .ok b → J.decErr b = none →
      ∃ e, (goClient J n f base m (goArg c) w).1 = .error e ∧ e.code = proxyCode resp.status ∧
        e.get (lit "http_error_from_intermediary") = lit "true" ∧
        e.get (lit "status_code") = lit (toString resp.status) ∧
        (300 ≤ resp.status ∧ resp.status < 400 → e.get (lit "location") = resp.location) ∧
        (¬ (300 ≤ resp.status ∧ resp.status < 400) → e.get (lit "body") = b) := by
  obtain ⟨b, h1, -⟩ := go_body hJ hj f hm ha
  refine ⟨sentOf base f m b, ?_⟩
  intro ω n w resp bs hn hx h200 hlt hb hd
  have hdig : ∀ k : Nat, k < 1000 → itoa k = lit (toString k) := by decide +kernel
  rw [go_result J n f base m _ w h1 hn hx]
  have l1 : (lit "http_error_from_intermediary" == lit "location") = false := by decide +kernel
  have l2 : (lit "http_error_from_intermediary" == lit "body") = false := by decide +kernel
  have l3 : (lit "http_error_from_intermediary" == lit "status_code") = false := by decide +kernel
  have l4 : (lit "status_code" == lit "location") = false := by decide +kernel
  have l5 : (lit "status_code" == lit "body") = false := by decide +kernel
  by_cases hr : 300 ≤ resp.status ∧ resp.status < 400
  · have hr' : isHTTPRedirect resp.status = true := by
      unfold isHTTPRedirect; rw [Bool.and_eq_true]; simp; omega
    refine ⟨errorFromIntermediary resp.status (n.msg resp.status) resp.location, ?_, ?_, ?_, ?_,
      fun _ => ?_, fun h => absurd hr h⟩
    · unfold resultOf errorFromResponse
      rw [if_pos h200, if_pos hr']
    · unfold errorFromIntermediary proxyCode
      simp [hr', hr, TwErr.withMeta, newError]
    · simp [errorFromIntermediary, hr', TwErr.withMeta, TwErr.get, List.lookup, l1, l3]
    · simp [errorFromIntermediary, hr', TwErr.withMeta, TwErr.get, List.lookup, l4, hdig _ hlt]
    · simp [errorFromIntermediary, hr', TwErr.withMeta, TwErr.get]
  · have hr' : isHTTPRedirect resp.status = false := by
      unfold isHTTPRedirect; rw [Bool.and_eq_false_iff]; simp; omega
    refine ⟨errorFromIntermediary resp.status (n.msg resp.status) bs, ?_, ?_, ?_, ?_,
      fun h => absurd h hr, fun _ => ?_⟩
    · unfold resultOf errorFromResponse
      rw [if_pos h200, if_neg (by simp [hr']), hb]
      simp only [hd]
    · unfold errorFromIntermediary proxyCode
      simp only [hr', hr, TwErr.withMeta, newError, if_false, Bool.false_eq_true]
      split
      · rename_i h; simp only [h]
      split
      · rename_i h; simp only [h]
      split
      · rename_i h; simp only [h]
      split
      · rename_i h; simp only [h]
      split
      · rename_i h; simp only [h]
      split
      · rename_i h; rcases h with h | h | h <;> simp only [h]
      · split <;> first | rfl | omega
    · simp [errorFromIntermediary, hr', TwErr.withMeta, TwErr.get, List.lookup, l2, l3]
    · simp [errorFromIntermediary, hr', TwErr.withMeta, TwErr.get, List.lookup, l5, hdig _ hlt]
    · simp [errorFromIntermediary, hr', TwErr.withMeta, TwErr.get]

/-! ## A network for the examples -/

/-- Strings one after the other. -/
def packStrs (l : List Bytes) : Bytes := l.flatMap fun s => s.flatMap (fun b => [1, b]) ++ [0]

def unpackStrs : Bytes → Bytes → List Bytes
  | acc, 0 :: r => acc :: unpackStrs [] r
  | acc, 1 :: b :: r => unpackStrs (acc ++ [b]) r
  | _, _ => []

theorem unpack_one (s acc r : Bytes) :
    unpackStrs acc (s.flatMap (fun b => [1, b]) ++ 0 :: r) = (acc ++ s) :: unpackStrs [] r := by
  induction s generalizing acc with
  | nil => simp [unpackStrs]
  | cons b s ih => simp [unpackStrs, ih]

theorem unpack_pack (l : List Bytes) : unpackStrs [] (packStrs l) = l := by
  induction l with
  | nil => rfl
  | cons s l ih =>
    have : packStrs (s :: l) = s.flatMap (fun b => [1, b]) ++ 0 :: packStrs l := by simp [packStrs]
    rw [this, unpack_one, ih]
    rfl

def pairUp : List Bytes → List (Bytes × Bytes)
  | k :: v :: l => (k, v) :: pairUp l
  | _ => []

theorem pair_up (l : List (Bytes × Bytes)) : pairUp (l.flatMap fun kv => [kv.1, kv.2]) = l := by
  induction l with
  | nil => rfl
  | cons kv l ih => simp [pairUp, ih]

/-- A library that meets the assumptions: messages as in protobuf, errors as strings one after the
other. -/
def toyJson : JsonLib where
  encErr t := some (packStrs (t.code :: t.msg :: t.metas.flatMap fun kv => [kv.1, kv.2]))
  decErr b :=
    match unpackStrs [] b with
    | code :: msg :: l => some ⟨code, msg, pairUp l⟩
    | _ => none
  encReq m s := goMarshal (goInput m) s
  encRes m s := goMarshal (goOutput m) s
  decRes m b := goUnmarshal (goOutput m) b

attribute [local irreducible] goMarshal goUnmarshal goRequest in
theorem toy_lawful : Lawful toyJson goRequest where
  err t _ := by
    refine ⟨_, t, rfl, ?_, rfl, rfl, fun _ => rfl⟩
    simp only [toyJson, unpack_pack, pair_up]
  req c m hm ha := go_request c m hm ha
  res m r s hs hu hl _ := by
    have hm : Success m r := by
      cases m <;> rcases r with a | a | a | a | a | a | a | a | a | a <;>
        (try cases a) <;> first | trivial | cases hs
    obtain ⟨h1, b, h2, h3⟩ := go_answer m r hm hu hl
    rw [hs] at h1
    cases h1
    exact ⟨b, h2, h3⟩

/-- Texts. -/
def toyWording : Wording where
  io := lit "write: broken pipe"
  ioType := lit "*net.OpError"
  route _ := lit "unsupported method"
  encoder := lit "invalid UTF-8"
  notFound := lit "404 page not found"
  moved := []
  location r := strBytes r.path

/-- A network that answers everything with `a`. -/
def toyNet (f : Fmt) (m : Method) (a : HttpAns) : Net Nat where
  exchange snt w := (.ok (respond toyJson toyWording f m snt.req a), w + 1)
  ctx _ := none
  msg _ := lit "error from intermediary"
  lib := lit "proto: cannot parse"
  close := none

/-- The hypotheses of C78 are met: a call that was answered in an execution, and what the client
makes of it. -/
example : ∃ s v, Reachable demo (Sys.initial demoStart) s ∧
    Answered s 1 .getBoot (.boot (.ok v)) ∧
    (goClient toyJson (toyNet .json .getBootInfo (.answer (.boot (.ok v)))) .json
      ⟨[], "heating.lan".toList, []⟩ .getBootInfo (goArg .getBoot) 0) =
      (.ok [(1, .u32 3), (2, .u32 20), (3, .u32 0), (4, .str [67, 65, 51, 53, 48])], 1) := by
  have h2 := execs_sound (S := demo) (cmds := [.arrive (.flush 0)] ++ steps 2 (.client 0) ++
      steps 10 .worker ++ steps 2 (.client 0) ++ [.arrive .getBoot] ++ steps 3 (.client 1))
    (fun _ _ => trivial) (.start (s₀ := Sys.initial demoStart)) rfl
  refine ⟨_, ⟨3, 20, 0, [67, 65, 51, 53, 48]⟩, h2, rfl, ?_⟩
  obtain ⟨snt, -, h⟩ := C78_answer toyJson goRequest goRequest_method toy_lawful id (fun _ => rfl)
    demo.cv ⟨[], "heating.lan".toList, []⟩ rfl .json .getBoot .getBootInfo rfl trivial
  obtain ⟨snt', -, h'⟩ := C78_request toyJson goRequest goRequest_method toy_lawful id (fun _ => rfl)
    demo.cv ⟨[], "heating.lan".toList, []⟩ rfl .json .getBoot .getBootInfo rfl trivial
  exact Prod.ext (h Nat _ 0 toyWording (.boot (.ok ⟨3, 20, 0, [67, 65, 51, 53, 48]⟩))
    ⟨fun _ => rfl, rfl⟩ trivial rfl (by show 5 < 2 ^ 64; decide) trivial rfl) (h' Nat _ 0)

/-- C78 with a slash at the end of the base URL, and a router that removes double slashes: nothing
happens. -/
example : serve (fun p => if "//".toList.isPrefixOf p then p.drop 1 else p)
    (pbCodec goRequest goRequest_method) demo.cv
    (newRequest ((urls ⟨"http".toList, "heating.lan".toList, "/".toList⟩).getD 6
      (serviceURL ⟨[], [], []⟩)) [8, 3] "application/protobuf").req = .ret .redirect := rfl

/-- C79: speed 9 is refused, and the client learns which argument was wrong. -/
example : ∃ e, (goClient toyJson (toyNet .protobuf .setFanSpeed
      (.answer (.speed (.err (.invalidArgument (.speedRange 9)))))) .protobuf
      ⟨"http".toList, "heating.lan".toList, []⟩ .setFanSpeed (goArg (.setSpeed 9 false)) 0).1 =
      .error e ∧ e.code = .invalidArgument ∧ e.get (lit "argument") = lit "FanSpeed" ∧
      e.msg = lit "FanSpeed value '9' out of range" := by
  obtain ⟨snt, -, h⟩ := C79_error toyJson goRequest goRequest_method toy_lawful id (fun _ => rfl)
    demo.cv ⟨"http".toList, "heating.lan".toList, []⟩ rfl .protobuf (.setSpeed 9 false) .setFanSpeed
    rfl trivial
  obtain ⟨e, h1, ⟨h2, h3, h4⟩, -⟩ := h Nat (toyNet .protobuf .setFanSpeed
    (.answer (.speed (.err (.invalidArgument (.speedRange 9)))))) 0 toyWording
    (.speed (.err (.invalidArgument (.speedRange 9)))) (.invalidArgument (.speedRange 9)) _ ⟨fun _ => rfl, rfl⟩ rfl
    nofun rfl rfl
  exact ⟨e, h1, h2, h4, h3.trans (by decide +kernel)⟩

/-- C79: the error page of a proxy. -/
example : errorFromResponse toyJson (fun _ => []) ⟨502, [], .ok (lit "<html>")⟩ =
    ⟨.unavailable, [], [(lit "body", lit "<html>"), (lit "status_code", lit "502"),
      (lit "http_error_from_intermediary", lit "true")]⟩ := by decide +kernel

end Comfo.Props
