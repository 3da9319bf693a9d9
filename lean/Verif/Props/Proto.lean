import Verif.Lemmas.Pb
import Verif.Props.Client
/-!
# Messages between client and server: C67–C70
-/
namespace Comfo.Props
open Spec Comfo.Pb

/-! ## C67 -/

set_option maxRecDepth 100000 in
/-- **C67** The descriptor in the Go code is `comfo.proto`. -/
theorem C67_go : parseFile goDesc = some protoFile := by rfl

set_option maxRecDepth 100000 in
/-- **C67** The descriptor in the Python code is `comfo.proto`. -/
theorem C67_python : parseFile pyDesc = some protoFile := by rfl

/-- **C67** Of every method, the messages the Go handlers take and return and the message the Python
client expects are those of the service in `comfo.proto`. -/
theorem C67_methods (m : Method) : ∃ d ∈ protoMethods, d.name = methodName m ∧
    (∃ msg, protoMessages[goInput m]? = some msg ∧ d.input = ".comfo.api.".toList ++ msg.name) ∧
    (∃ msg, protoMessages[goOutput m]? = some msg ∧ d.output = ".comfo.api.".toList ++ msg.name) ∧
    d.output = ".comfo.api.".toList ++ clientAnswer m := by
  cases m
  · exact ⟨pbMethod "GetBootInfo" "Noop" "BootInfo", by decide, rfl, ⟨_, rfl, rfl⟩, ⟨_, rfl, rfl⟩, rfl⟩
  · exact ⟨pbMethod "GetTemps" "Noop" "Temps", by decide, rfl, ⟨_, rfl, rfl⟩, ⟨_, rfl, rfl⟩, rfl⟩
  · exact ⟨pbMethod "GetBypass" "Noop" "Bypass", by decide, rfl, ⟨_, rfl, rfl⟩, ⟨_, rfl, rfl⟩, rfl⟩
  · exact ⟨pbMethod "GetFans" "Noop" "Fans", by decide, rfl, ⟨_, rfl, rfl⟩, ⟨_, rfl, rfl⟩, rfl⟩
  · exact ⟨pbMethod "GetFanProfiles" "Noop" "FanProfiles", by decide, rfl, ⟨_, rfl, rfl⟩, ⟨_, rfl, rfl⟩, rfl⟩
  · exact ⟨pbMethod "GetErrors" "Noop" "Errors", by decide, rfl, ⟨_, rfl, rfl⟩, ⟨_, rfl, rfl⟩, rfl⟩
  · exact ⟨pbMethod "SetFanSpeed" "FanSpeedTarget" "FanSpeedModified", by decide, rfl, ⟨_, rfl, rfl⟩, ⟨_, rfl, rfl⟩, rfl⟩
  · exact ⟨pbMethod "SetComfortTemp" "ComfortTarget" "ComfortModified", by decide, rfl, ⟨_, rfl, rfl⟩, ⟨_, rfl, rfl⟩, rfl⟩
  · exact ⟨pbMethod "SetFanProfile" "FanProfileTarget" "FanProfileModified", by decide, rfl, ⟨_, rfl, rfl⟩, ⟨_, rfl, rfl⟩, rfl⟩
  · exact ⟨pbMethod "FlushCache" "FlushCacheRequest" "FlushCacheResponse", by decide, rfl, ⟨_, rfl, rfl⟩, ⟨_, rfl, rfl⟩, rfl⟩

/-! ## Descriptors of the messages -/

theorem goMsg_eq (i : Nat) :
    goMsg i = match protoMessages[i]? with
      | none => []
      | some m => m.fields := by
  unfold goMsg
  rw [C67_go]
  rfl

theorem pyMsg_eq (name : Str) :
    pyMsg name = match protoMessages.find? fun m => m.name = name with
      | none => []
      | some m => m.fields := by
  unfold pyMsg
  rw [C67_python]
  rfl

/-- All numbers of fields are valid and differ. -/
theorem goMsg_nums (i : Nat) :
    (∀ f ∈ goMsg i, FieldNum f.num) ∧ ((goMsg i).map (·.num)).Nodup := by
  rw [goMsg_eq]
  by_cases h : i < 16
  · have key : ∀ i : Fin 16, (∀ f ∈ (match protoMessages[i.val]? with
        | none => []
        | some m => m.fields), 1 ≤ f.num ∧ f.num < 2 ^ 29) ∧ ((match protoMessages[i.val]? with
        | none => []
        | some m => m.fields).map FieldDesc.num).Nodup := by decide
    exact key ⟨i, h⟩
  · rw [List.getElem?_eq_none (by simp [protoMessages]; omega)]
    simp

/-- Both sides have the same fields for the same message. -/
theorem pyMsg_output (m : Method) : pyMsg (clientAnswer m) = goMsg (goOutput m) := by
  rw [goMsg_eq, pyMsg_eq]
  cases m <;> rfl

/-! ## Floats -/

theorem f32_ok {t : Int} (h : Exact t) : f32Value (f32Bits t) = some t := by
  obtain ⟨h1, h2⟩ := h
  by_cases h0 : t = 0
  · subst h0; rfl
  unfold f32Bits
  rw [if_neg h0]
  generalize hn : t.natAbs = n
  dsimp only
  have hpos : n ≠ 0 := by omega
  have hlt : n < 16777216 := by omega
  generalize he : Nat.log2 n = e
  have hlo : 2 ^ e ≤ n := by rw [← he]; exact Nat.log2_self_le hpos
  have hhi : n < 2 ^ (e + 1) := by rw [← he]; exact Nat.lt_log2_self
  have he23 : e ≤ 23 := by
    have : e < 24 := by
      rw [← he, Nat.log2_lt hpos]; exact hlt
    omega
  have hmul : 2 ^ e * 2 ^ (23 - e) = 8388608 := by
    rw [← Nat.pow_add, show e + (23 - e) = 23 by omega]
  generalize hP : 2 ^ (23 - e) = P at hmul ⊢
  have hP0 : 0 < P := by rw [← hP]; exact Nat.pos_of_ne_zero (by simp)
  rw [Nat.pow_succ] at hhi
  have hm : (n - 2 ^ e) * P + 8388608 = n * P := by
    rw [← hmul, ← Nat.add_mul]; congr 1; omega
  have hm2 : (n - 2 ^ e) * P < 8388608 := by
    rw [← hmul]
    exact Nat.mul_lt_mul_of_pos_right (by omega) hP0
  generalize (n - 2 ^ e) * P = m at hm hm2 ⊢
  have key : ∀ s : Nat, s = 0 ∨ s = 2147483648 →
      (UInt32.ofNat (s + (e + 127) * 8388608 + m)).toNat = s + (e + 127) * 8388608 + m := by
    intro s hs
    simp
    omega
  unfold f32Value
  dsimp only
  by_cases hneg : t < 0
  · rw [if_pos hneg, key _ (.inr rfl)]
    have a1 : (2147483648 + (e + 127) * 8388608 + m) / 8388608 % 256 = e + 127 := by omega
    have a2 : (2147483648 + (e + 127) * 8388608 + m) % 8388608 = m := by omega
    rw [a1, a2, if_neg (by omega), show 150 - (e + 127) = 23 - e by omega, hP,
      show 8388608 + m = n * P by omega, Nat.mul_mod_left, Nat.mul_div_cancel _ hP0,
      if_pos ⟨by omega, by omega, rfl⟩, if_pos (by omega)]
    congr 1
    omega
  · rw [if_neg hneg, key _ (.inl rfl)]
    have a1 : (0 + (e + 127) * 8388608 + m) / 8388608 % 256 = e + 127 := by omega
    have a2 : (0 + (e + 127) * 8388608 + m) % 8388608 = m := by omega
    rw [a1, a2, if_neg (by omega), show 150 - (e + 127) = 23 - e by omega, hP,
      show 8388608 + m = n * P by omega, Nat.mul_mod_left, Nat.mul_div_cancel _ hP0,
      if_pos ⟨by omega, by omega, rfl⟩, if_neg (by omega)]
    congr 1
    omega

/-! ## Durations -/

/-- Only ASCII. -/
def ascii (s : List UInt8) : Prop := ∀ b ∈ s, b.toNat < 128

theorem ascii_append {s t : List UInt8} (hs : ascii s) (ht : ascii t) : ascii (s ++ t) := by
  intro b hb
  rcases List.mem_append.1 hb with h | h
  · exact hs b h
  · exact ht b h

theorem utf8_append {s t : List UInt8} (hs : ascii s) (ht : validUtf8 t = true) :
    validUtf8 (s ++ t) = true := by
  induction s with
  | nil => exact ht
  | cons b s ih =>
    have hb : b < 0x80 := by
      rw [UInt8.lt_iff_toNat_lt]; exact hs b (by simp)
    rw [List.cons_append]
    unfold validUtf8
    rw [if_pos hb]
    exact ih fun x hx => hs x (by simp [hx])

theorem digits_ok (k n : Nat) : ascii (digits k n) ∧ (digits k n).length ≤ k := by
  induction k generalizing n with
  | zero => exact ⟨(fun _ h => by cases h), Nat.le_refl _⟩
  | succ k ih =>
    unfold digits
    split
    · refine ⟨?_, by simp⟩
      intro b hb
      simp only [List.mem_singleton] at hb
      subst hb
      simp
      omega
    · obtain ⟨h1, h2⟩ := ih (n / 10)
      refine ⟨ascii_append h1 ?_, by simp; omega⟩
      intro b hb
      simp only [List.mem_singleton] at hb
      subst hb
      simp
      omega

theorem fracDigits_ok (k v : Nat) (acc : List UInt8) (h : ascii acc) :
    ascii (fracDigits k v acc) ∧ (fracDigits k v acc).length ≤ k + acc.length := by
  induction k generalizing v acc with
  | zero => exact ⟨h, by simp [fracDigits]⟩
  | succ k ih =>
    unfold fracDigits
    split
    · obtain ⟨h1, h2⟩ := ih (v / 10) (UInt8.ofNat (48 + v % 10) :: acc) (by
        intro b hb
        rcases List.mem_cons.1 hb with rfl | hb
        · simp; omega
        · exact h b hb)
      refine ⟨h1, ?_⟩
      rw [List.length_cons] at h2
      omega
    · obtain ⟨h1, h2⟩ := ih (v / 10) acc h
      exact ⟨h1, by omega⟩

theorem decimal_ok (k v : Nat) : ascii (decimal k v) ∧ (decimal k v).length ≤ 21 + k := by
  obtain ⟨h1, h2⟩ := digits_ok 20 (v / 10 ^ k)
  obtain ⟨h3, h4⟩ := fracDigits_ok k v [] (fun _ h => by cases h)
  unfold decimal
  split
  · exact ⟨ascii_append h1 (fun _ h => by cases h), by simp; omega⟩
  · refine ⟨ascii_append h1 ?_, by simp at h4 ⊢; omega⟩
    intro b hb
    rcases List.mem_cons.1 hb with rfl | hb
    · decide
    · exact h3 b hb

theorem durString_ok (d : Int) : validUtf8 (durString d) = true ∧ (durString d).length < 2 ^ 64 := by
  have hsign : ascii (if d < 0 then ([45] : List UInt8) else []) ∧
      (if d < 0 then ([45] : List UInt8) else []).length ≤ 1 := by
    split
    · exact ⟨by intro b hb; simp only [List.mem_singleton] at hb; subst hb; decide, by decide⟩
    · exact ⟨(fun _ h => by cases h), by decide⟩
  unfold durString
  dsimp only
  generalize (if d < 0 then ([45] : List UInt8) else []) = sign at hsign
  obtain ⟨hs1, hs2⟩ := hsign
  have ha : ∀ n, ascii (digits 20 n) := fun n => (digits_ok 20 n).1
  have hb : ∀ n, (digits 20 n).length ≤ 20 := fun n => (digits_ok 20 n).2
  have hc : ∀ k n, ascii (decimal k n) := fun k n => (decimal_ok k n).1
  have hd : ∀ k n, (decimal k n).length ≤ 21 + k := fun k n => (decimal_ok k n).2
  have one : ∀ b : UInt8, b.toNat < 128 → ascii [b] := by
    intro b hb x hx
    simp only [List.mem_singleton] at hx
    subst hx; exact hb
  split
  · decide
  split
  · exact ⟨utf8_append (ascii_append hs1 (ha _)) (by decide), by
      have := hb d.natAbs; simp; omega⟩
  split
  · exact ⟨utf8_append (ascii_append hs1 (hc _ _)) (by decide), by
      have := hd 3 d.natAbs; simp; omega⟩
  split
  · exact ⟨utf8_append (ascii_append hs1 (hc _ _)) (by decide), by
      have := hd 6 d.natAbs; simp; omega⟩
  have h9 := hd 9 (d.natAbs % 60000000000)
  have hm := hb (d.natAbs / 1000000000 / 60 % 60)
  have hh := hb (d.natAbs / 1000000000 / 60 / 60)
  have v9 : validUtf8 (decimal 9 (d.natAbs % 60000000000) ++ [115]) = true :=
    utf8_append (hc _ _) (by decide)
  split
  · exact ⟨utf8_append hs1 v9, by simp; omega⟩
  split
  · exact ⟨utf8_append hs1 (utf8_append (ascii_append (ha _) (one _ (by decide))) v9), by
      simp; omega⟩
  · exact ⟨utf8_append (ascii_append (ascii_append hs1 (ha _)) (one _ (by decide)))
      (utf8_append (ascii_append (ha _) (one _ (by decide))) v9), by simp; omega⟩

example : durString 1500000 = [49, 46, 53, 109, 115] ∧
    durString (-61500000001) = [45, 49, 109, 49, 46, 53, 48, 48, 48, 48, 48, 48, 48, 49, 115] := by
  decide

/-! ## C68 -/

/-- Decoding on the Go side what was encoded with the same fields. -/
theorem go_decodes {m : Method} {c : Call} {vs : List Val} {bs : List UInt8}
    (h : marshal (goMsg (goInput m)) vs = some bs) (hv : ∀ v ∈ vs, v.fits)
    (hs : ∀ s, .str s ∉ vs)
    (hc : goCall m (((goMsg (goInput m)).map (·.num)).zip vs) = c) : goRequest m bs = some c := by
  unfold goRequest goUnmarshal
  rw [unmarshal_marshal h (goMsg_nums _).1 (goMsg_nums _).2 hv fun s hs' => absurd hs' (hs s)]
  simp [hc]

/-- **C68** Requests reach the server unchanged: for every request the client can make, the body it
sends is decoded by the server as that request. -/
theorem C68_request (c : Call) (m : Method) (hm : c.method = some m) (hf : m ≠ .flushCache) :
    ∃ body, pyBody c = some body ∧ goRequest m body = some c := by
  have hn : pyMake "Noop".toList [] = some [] := by
    unfold pyMake; rw [pyMsg_eq]; rfl
  have h0 : goMsg 0 = [] := by rw [goMsg_eq]; rfl
  cases c <;> simp only [Call.method, Option.some.injEq, reduceCtorEq] at hm <;> subst hm
  case flush => exact absurd rfl hf
  case setSpeed a r =>
    have e : goMsg (goInput .setFanSpeed) = [pbField .uint32 "Abs" 1, pbField .bool "Rel" 2] := by
      rw [goMsg_eq]; rfl
    have e' : pyBody (.setSpeed a r) = marshal (goMsg (goInput .setFanSpeed)) [.u32 a, .bool r] := by
      have e2 : pyMsg "FanSpeedTarget".toList = goMsg _ := (by rw [e, pyMsg_eq]; rfl); unfold pyBody pyMake; rw [e2, e]; rfl
    obtain ⟨bs, hb⟩ : ∃ bs, marshal (goMsg (goInput .setFanSpeed)) [.u32 a, .bool r] = some bs := by
      rw [e]; exact ⟨_, rfl⟩
    exact ⟨bs, e'.trans hb, go_decodes hb (by simp [Val.fits]) (by simp) (by rw [e]; rfl)⟩
  case setComfort t =>
    have e : goMsg (goInput .setComfortTemp) = [pbField .uint32 "ComfortTemp" 1] := by
      rw [goMsg_eq]; rfl
    have e' : pyBody (.setComfort t) = marshal (goMsg (goInput .setComfortTemp)) [.u32 t] := by
      have e2 : pyMsg "ComfortTarget".toList = goMsg _ := (by rw [e, pyMsg_eq]; rfl); unfold pyBody pyMake; rw [e2, e]; rfl
    obtain ⟨bs, hb⟩ : ∃ bs, marshal (goMsg (goInput .setComfortTemp)) [.u32 t] = some bs := by
      rw [e]; exact ⟨_, rfl⟩
    exact ⟨bs, e'.trans hb, go_decodes hb (by simp [Val.fits]) (by simp) (by rw [e]; rfl)⟩
  case setProfile a t =>
    have e : goMsg (goInput .setFanProfile) =
        [pbField .uint32 "Mode" 1, pbField .uint32 "TargetSpeed" 2] := by
      rw [goMsg_eq]; rfl
    have e' : pyBody (.setProfile a t) =
        marshal (goMsg (goInput .setFanProfile)) [.u32 a, .u32 t] := by
      have e2 : pyMsg "FanProfileTarget".toList = goMsg _ := (by rw [e, pyMsg_eq]; rfl); unfold pyBody pyMake; rw [e2, e]; rfl
    obtain ⟨bs, hb⟩ : ∃ bs, marshal (goMsg (goInput .setFanProfile)) [.u32 a, .u32 t] = some bs := by
      rw [e]; exact ⟨_, rfl⟩
    exact ⟨bs, e'.trans hb, go_decodes hb (by simp [Val.fits]) (by simp) (by rw [e]; rfl)⟩
  all_goals
    exact ⟨[], hn, go_decodes (vs := []) (by simp [goInput, h0, marshal]) (by simp) (by simp) rfl⟩

/-- **C68** The request as the server sees it: what the client sends for a call runs the program of
that call. -/
theorem C68_served (clean : Str → Str) (hc : ∀ m, clean (routeOf m) = routeOf m)
    (json : Method → List UInt8 → Option Call)
    (hj : ∀ {m b c}, json m b = some c → c.method = some m) (cv : FloatConv)
    (c : Call) (m : Method) (hm : c.method = some m) (hf : m ≠ .flushCache) :
    ∃ body, pyBody c = some body ∧
      serve clean (pbCodec json hj) cv (clientReq m body) =
        (c.prog cv).bind fun a => .ret a.http := by
  obtain ⟨body, h1, h2⟩ := C68_request c m hm hf
  refine ⟨body, h1, ?_⟩
  have hmf := (C62_routes_agree clean hc m m .protobuf body).2 ⟨rfl, rfl⟩
  rcases C53_handler clean (pbCodec json hj) cv _ _ _ hmf with ⟨h3, -⟩ | ⟨c', h3, -, h4⟩
  · have : goRequest m body = none := h3
    rw [h2] at this; cases this
  · have h3 : goRequest m body = some c' := h3
    rw [h2] at h3
    cases h3
    exact h4

/-- The bytes of a request: fan speed 3. -/
example : pyBody (.setSpeed 3 false) = some [8, 3] := by
  have : pyMsg "FanSpeedTarget".toList = [pbField .uint32 "Abs" 1, pbField .bool "Rel" 2] := by
    rw [pyMsg_eq]; rfl
  unfold pyBody pyMake
  rw [this]
  decide

/-- Decoding on the Python side what the Go side has encoded. -/
theorem py_decodes {m : Method} {struct : List (Nat × Val)} {vs : List Val}
    (hl : allOf (fun f => struct.lookup f.num) (goMsg (goOutput m)) = some vs)
    {bs : List UInt8} (h : marshal (goMsg (goOutput m)) vs = some bs)
    (hv : ∀ v ∈ vs, v.fits) (hs : ∀ s, .str s ∈ vs → s.length < 2 ^ 64) :
    goMarshal (goOutput m) struct = some bs ∧
    pyParse (clientAnswer m) bs = some (((goMsg (goOutput m)).map (·.name)).zip vs) := by
  refine ⟨by unfold goMarshal; rw [hl]; exact h, ?_⟩
  unfold pyParse
  rw [pyMsg_output, unmarshal_marshal h (goMsg_nums _).1 (goMsg_nums _).2 hv hs]
  rfl

/-- Encoding of a string. -/
theorem encode_str {name : String} {n : Nat} {s : List UInt8} (h : validUtf8 s = true) :
    ∃ a, encodeField (pbField .string name n) (.str s) = some a :=
  ⟨_, by simp only [encodeField, pbField, h, if_true]; rfl⟩

theorem answer_getBootInfo (b : PbBootInfo) (hu : validUtf8 b.deviceName = true)
    (hl : b.deviceName.length < 2 ^ 64) :
    ∃ bs, goBody .getBootInfo (.boot (.ok b)) = some bs ∧
      pyAnswer .getBootInfo bs = some (untimed (.boot (.ok b))) := by
  have e : goMsg (goOutput .getBootInfo) = [pbField .uint32 "MajorVersion" 1, pbField .uint32 "MinorVersion" 2,
    pbField .uint32 "BetaVersion" 3, pbField .string "DeviceName" 4] := by
    rw [goMsg_eq]; rfl
  have hu' := hu
  have hl' := hl
  obtain ⟨bs, hb⟩ : ∃ bs, marshal (goMsg (goOutput .getBootInfo)) [.u32 b.majorVersion, .u32 b.minorVersion, .u32 b.betaVersion, .str b.deviceName] = some bs := by
    rw [e]; exact ⟨_, by simp only [marshal, encodeField, pbField, hu', if_true]; rfl⟩
  obtain ⟨k1, k2⟩ := py_decodes (m := .getBootInfo) (struct := (goStruct .getBootInfo (.boot (.ok b))).getD [])
    (by rw [e]; rfl) hb (by simp [Val.fits]) (by simp; omega)
  refine ⟨bs, k1, ?_⟩
  unfold pyAnswer
  rw [k2, e]
  rfl

theorem answer_getTemps (t : PbTemps)
    (h1 : Exact t.comfort) (h2 : Exact t.outsideAir) (h3 : Exact t.supplyAir)
    (h4 : Exact t.insideAir) (h5 : Exact t.exhaustAir) (h6 : Exact t.geoHeat)
    (h7 : Exact t.reheating) (h8 : Exact t.kitchenHood) :
    ∃ bs, goBody .getTemps (.temps (.ok t)) = some bs ∧
      pyAnswer .getTemps bs = some (untimed (.temps (.ok t))) := by
  have e : goMsg (goOutput .getTemps) = [pbField .float "Comfort" 1, pbField .float "OutsideAir" 2,
    pbField .float "SupplyAir" 3, pbField .float "InsideAir" 4, pbField .float "ExhaustAir" 5,
    pbField .float "GeoHeat" 6, pbField .float "Reheating" 7, pbField .float "KitchenHood" 8] := by
    rw [goMsg_eq]; rfl
  obtain ⟨bs, hb⟩ : ∃ bs, marshal (goMsg (goOutput .getTemps)) [.f32 (f32Bits t.comfort), .f32 (f32Bits t.outsideAir),
    .f32 (f32Bits t.supplyAir), .f32 (f32Bits t.insideAir), .f32 (f32Bits t.exhaustAir),
    .f32 (f32Bits t.geoHeat), .f32 (f32Bits t.reheating), .f32 (f32Bits t.kitchenHood)] = some bs := by
    rw [e]; exact ⟨_, rfl⟩
  obtain ⟨k1, k2⟩ := py_decodes (m := .getTemps) (struct := (goStruct .getTemps (.temps (.ok t))).getD [])
    (by rw [e]; rfl) hb (by simp [Val.fits]) (by simp)
  refine ⟨bs, k1, ?_⟩
  unfold pyAnswer
  rw [k2, e]
  generalize ho : List.zip _ _ = o
  have y1 : pyF o "Comfort" = some t.comfort := by rw [← ho]; exact f32_ok h1
  have y2 : pyF o "OutsideAir" = some t.outsideAir := by rw [← ho]; exact f32_ok h2
  have y3 : pyF o "SupplyAir" = some t.supplyAir := by rw [← ho]; exact f32_ok h3
  have y4 : pyF o "InsideAir" = some t.insideAir := by rw [← ho]; exact f32_ok h4
  have y5 : pyF o "ExhaustAir" = some t.exhaustAir := by rw [← ho]; exact f32_ok h5
  have y6 : pyF o "GeoHeat" = some t.geoHeat := by rw [← ho]; exact f32_ok h6
  have y7 : pyF o "Reheating" = some t.reheating := by rw [← ho]; exact f32_ok h7
  have y8 : pyF o "KitchenHood" = some t.kitchenHood := by rw [← ho]; exact f32_ok h8
  simp only [Option.bind_eq_bind, Option.bind_some, y1, y2, y3, y4, y5, y6, y7, y8]
  rfl

theorem answer_getBypass (b : PbBypass) :
    ∃ bs, goBody .getBypass (.bypass (.ok b)) = some bs ∧
      pyAnswer .getBypass bs = some (untimed (.bypass (.ok b))) := by
  have e : goMsg (goOutput .getBypass) = [pbField .uint32 "Factor" 1, pbField .uint32 "Level" 2,
    pbField .uint32 "Correction" 3, pbField .bool "SummerMode" 4] := by
    rw [goMsg_eq]; rfl
  obtain ⟨bs, hb⟩ : ∃ bs, marshal (goMsg (goOutput .getBypass)) [.u32 b.factor, .u32 b.level, .u32 b.correction, .bool b.summerMode] = some bs := by
    rw [e]; exact ⟨_, rfl⟩
  obtain ⟨k1, k2⟩ := py_decodes (m := .getBypass) (struct := (goStruct .getBypass (.bypass (.ok b))).getD [])
    (by rw [e]; rfl) hb (by simp [Val.fits]) (by simp)
  refine ⟨bs, k1, ?_⟩
  unfold pyAnswer
  rw [k2, e]
  rfl

theorem answer_getFans (f : PbFans) :
    ∃ bs, goBody .getFans (.fans (.ok f)) = some bs ∧
      pyAnswer .getFans bs = some (untimed (.fans (.ok f))) := by
  have e : goMsg (goOutput .getFans) = [pbField .uint32 "InPercent" 1, pbField .uint32 "OutPercent" 2,
    pbField .uint32 "InSpeed" 3, pbField .uint32 "OutSpeed" 4] := by
    rw [goMsg_eq]; rfl
  obtain ⟨bs, hb⟩ : ∃ bs, marshal (goMsg (goOutput .getFans)) [.u32 f.inPercent, .u32 f.outPercent, .u32 f.inSpeed, .u32 f.outSpeed] = some bs := by
    rw [e]; exact ⟨_, rfl⟩
  obtain ⟨k1, k2⟩ := py_decodes (m := .getFans) (struct := (goStruct .getFans (.fans (.ok f))).getD [])
    (by rw [e]; rfl) hb (by simp [Val.fits]) (by simp)
  refine ⟨bs, k1, ?_⟩
  unfold pyAnswer
  rw [k2, e]
  rfl

theorem answer_getFanProfiles (p : PbFanProfiles) :
    ∃ bs, goBody .getFanProfiles (.profiles (.ok p)) = some bs ∧
      pyAnswer .getFanProfiles bs = some (untimed (.profiles (.ok p))) := by
  have e : goMsg (goOutput .getFanProfiles) = [pbField .uint32 "OutAway" 1, pbField .uint32 "OutLow" 2,
    pbField .uint32 "OutMid" 3, pbField .uint32 "OutHigh" 4, pbField .bool "InFanActive" 5,
    pbField .uint32 "InAway" 6, pbField .uint32 "InLow" 7, pbField .uint32 "InMid" 8,
    pbField .uint32 "InHigh" 9, pbField .uint32 "CurrentOut" 10, pbField .uint32 "CurrentIn" 11,
    pbField .uint32 "CurrentMode" 12] := by
    rw [goMsg_eq]; rfl
  obtain ⟨bs, hb⟩ : ∃ bs, marshal (goMsg (goOutput .getFanProfiles)) [.u32 p.outAway, .u32 p.outLow, .u32 p.outMid, .u32 p.outHigh,
    .bool p.inFanActive, .u32 p.inAway, .u32 p.inLow, .u32 p.inMid, .u32 p.inHigh, .u32 p.currentOut,
    .u32 p.currentIn, .u32 p.currentMode] = some bs := by
    rw [e]; exact ⟨_, rfl⟩
  obtain ⟨k1, k2⟩ := py_decodes (m := .getFanProfiles) (struct := (goStruct .getFanProfiles (.profiles (.ok p))).getD [])
    (by rw [e]; rfl) hb (by simp [Val.fits]) (by simp)
  refine ⟨bs, k1, ?_⟩
  unfold pyAnswer
  rw [k2, e]
  rfl

theorem answer_getErrors (v : PbErrors) :
    ∃ bs, goBody .getErrors (.errors (.ok v)) = some bs ∧
      pyAnswer .getErrors bs = some (untimed (.errors (.ok v))) := by
  have e : goMsg (goOutput .getErrors) = [pbField .bool "Filter" 1] := by
    rw [goMsg_eq]; rfl
  obtain ⟨bs, hb⟩ : ∃ bs, marshal (goMsg (goOutput .getErrors)) [.bool v.filter] = some bs := by
    rw [e]; exact ⟨_, rfl⟩
  obtain ⟨k1, k2⟩ := py_decodes (m := .getErrors) (struct := (goStruct .getErrors (.errors (.ok v))).getD [])
    (by rw [e]; rfl) hb (by simp [Val.fits]) (by simp)
  refine ⟨bs, k1, ?_⟩
  unfold pyAnswer
  rw [k2, e]
  rfl

theorem answer_setFanSpeed (c : SpeedModified) :
    ∃ bs, goBody .setFanSpeed (.speed (.ok c)) = some bs ∧
      pyAnswer .setFanSpeed bs = some (untimed (.speed (.ok c))) := by
  have e : goMsg (goOutput .setFanSpeed) = [pbField .bool "Modified" 1, pbField .uint32 "OriginalSpeed" 2,
    pbField .uint32 "TargetSpeed" 3, pbField .string "ReqTime" 4] := by
    rw [goMsg_eq]; rfl
  have hu' := (durString_ok c.reqTime).1
  have hl' := (durString_ok c.reqTime).2
  obtain ⟨bs, hb⟩ : ∃ bs, marshal (goMsg (goOutput .setFanSpeed)) [.bool c.modified, .u32 c.originalSpeed, .u32 c.targetSpeed,
    .str (durString c.reqTime)] = some bs := by
    rw [e]; exact ⟨_, by simp only [marshal, encodeField, pbField, hu', if_true]; rfl⟩
  obtain ⟨k1, k2⟩ := py_decodes (m := .setFanSpeed) (struct := (goStruct .setFanSpeed (.speed (.ok c))).getD [])
    (by rw [e]; rfl) hb (by simp [Val.fits]) (by simp; omega)
  refine ⟨bs, k1, ?_⟩
  unfold pyAnswer
  rw [k2, e]
  rfl

theorem answer_setComfortTemp (c : ComfortModified) :
    ∃ bs, goBody .setComfortTemp (.comfort (.ok c)) = some bs ∧
      pyAnswer .setComfortTemp bs = some (untimed (.comfort (.ok c))) := by
  have e : goMsg (goOutput .setComfortTemp) = [pbField .bool "Modified" 1, pbField .uint32 "OriginalTemp" 2,
    pbField .uint32 "TargetTemp" 3, pbField .string "ReqTime" 4] := by
    rw [goMsg_eq]; rfl
  have hu' := (durString_ok c.reqTime).1
  have hl' := (durString_ok c.reqTime).2
  obtain ⟨bs, hb⟩ : ∃ bs, marshal (goMsg (goOutput .setComfortTemp)) [.bool c.modified, .u32 c.originalTemp, .u32 c.targetTemp,
    .str (durString c.reqTime)] = some bs := by
    rw [e]; exact ⟨_, by simp only [marshal, encodeField, pbField, hu', if_true]; rfl⟩
  obtain ⟨k1, k2⟩ := py_decodes (m := .setComfortTemp) (struct := (goStruct .setComfortTemp (.comfort (.ok c))).getD [])
    (by rw [e]; rfl) hb (by simp [Val.fits]) (by simp; omega)
  refine ⟨bs, k1, ?_⟩
  unfold pyAnswer
  rw [k2, e]
  rfl

theorem answer_setFanProfile (c : SpeedModified) :
    ∃ bs, goBody .setFanProfile (.speed (.ok c)) = some bs ∧
      pyAnswer .setFanProfile bs = some (untimed (.speed (.ok c))) := by
  have e : goMsg (goOutput .setFanProfile) = [pbField .bool "Modified" 1, pbField .uint32 "OriginalSpeed" 2,
    pbField .uint32 "TargetSpeed" 3, pbField .string "ReqTime" 4] := by
    rw [goMsg_eq]; rfl
  have hu' := (durString_ok c.reqTime).1
  have hl' := (durString_ok c.reqTime).2
  obtain ⟨bs, hb⟩ : ∃ bs, marshal (goMsg (goOutput .setFanProfile)) [.bool c.modified, .u32 c.originalSpeed, .u32 c.targetSpeed,
    .str (durString c.reqTime)] = some bs := by
    rw [e]; exact ⟨_, by simp only [marshal, encodeField, pbField, hu', if_true]; rfl⟩
  obtain ⟨k1, k2⟩ := py_decodes (m := .setFanProfile) (struct := (goStruct .setFanProfile (.speed (.ok c))).getD [])
    (by rw [e]; rfl) hb (by simp [Val.fits]) (by simp; omega)
  refine ⟨bs, k1, ?_⟩
  unfold pyAnswer
  rw [k2, e]
  rfl

theorem answer_flushCache (f : FlushResponse) :
    ∃ bs, goBody .flushCache (.flushed (.ok f)) = some bs ∧
      pyAnswer .flushCache bs = some (untimed (.flushed (.ok f))) := by
  have e : goMsg (goOutput .flushCache) = [pbField .bool "Success" 1, pbField .string "ReqTime" 2] := by
    rw [goMsg_eq]; rfl
  have hu' := (durString_ok f.reqTime).1
  have hl' := (durString_ok f.reqTime).2
  obtain ⟨bs, hb⟩ : ∃ bs, marshal (goMsg (goOutput .flushCache)) [.bool f.success, .str (durString f.reqTime)] = some bs := by
    rw [e]; exact ⟨_, by simp only [marshal, encodeField, pbField, hu', if_true]; rfl⟩
  obtain ⟨k1, k2⟩ := py_decodes (m := .flushCache) (struct := (goStruct .flushCache (.flushed (.ok f))).getD [])
    (by rw [e]; rfl) hb (by simp [Val.fits]) (by simp; omega)
  refine ⟨bs, k1, ?_⟩
  unfold pyAnswer
  rw [k2, e]
  rfl

/-- **C68** Answers reach the client unchanged, up to the time the request took, which the client
does not read: what the server encodes is decoded by the client as that answer. -/
theorem C68_answer (m : Method) (r : Resp) (hm : Success m r) (hu : r.marshals = true)
    (hl : ShortName r) (ht : ExactTemps r) :
    ∃ bs, goBody m r = some bs ∧ pyAnswer m bs = some (untimed r) := by
  cases m <;> rcases r with a | a | a | a | a | a | a | a | a | a <;>
    (try cases a) <;> try exact False.elim hm
  · exact answer_getBootInfo _ hu hl
  · exact answer_getTemps _ ht.1 ht.2.1 ht.2.2.1 ht.2.2.2.1 ht.2.2.2.2.1 ht.2.2.2.2.2.1
        ht.2.2.2.2.2.2.1 ht.2.2.2.2.2.2.2
  · exact answer_getBypass _
  · exact answer_getFans _
  · exact answer_getFanProfiles _
  · exact answer_getErrors _
  · exact answer_setFanSpeed _
  · exact answer_setComfortTemp _
  · exact answer_setFanProfile _
  · exact answer_flushCache _

/-- **C68** Only the name of the unit can keep an answer from being encoded. -/
theorem C68_encodes (m : Method) (r : Resp) (hm : Success m r) (ht : ExactTemps r)
    (hl : ShortName r) : (goBody m r).isSome = r.marshals := by
  by_cases hu : r.marshals = true
  · obtain ⟨bs, h, -⟩ := C68_answer m r hm hu hl ht
    rw [h, hu]; rfl
  · obtain ⟨b, rfl, rfl⟩ : ∃ b, r = .boot (.ok b) ∧ m = .getBootInfo := by
      cases m <;> rcases r with a | a | a | a | a | a | a | a | a | a <;>
        (try cases a) <;> first
        | exact False.elim hm
        | exact ⟨_, rfl, rfl⟩
        | exact absurd rfl hu
    have hu : validUtf8 b.deviceName = false := by simpa [Resp.marshals] using hu
    have e : goMsg (goOutput .getBootInfo) = [pbField .uint32 "MajorVersion" 1,
        pbField .uint32 "MinorVersion" 2, pbField .uint32 "BetaVersion" 3,
        pbField .string "DeviceName" 4] := by
      rw [goMsg_eq]; rfl
    have h1 : goBody .getBootInfo (.boot (.ok b)) = none := by
      show goMarshal (goOutput .getBootInfo) [(1, .u32 b.majorVersion), (2, .u32 b.minorVersion),
        (3, .u32 b.betaVersion), (4, .str b.deviceName)] = none
      unfold goMarshal
      rw [e]
      show marshal _ [.u32 b.majorVersion, .u32 b.minorVersion, .u32 b.betaVersion,
        .str b.deviceName] = none
      simp [marshal, encodeField, pbField, hu]
    rw [h1]
    simp [Resp.marshals, hu]

/-- The value served by a `Get` is the one at the start, or decoded from a reply. -/
theorem served_from {S : Setup σ} {w : World σ} {s : Sys σ}
    (h : Reachable S (Sys.initial w) s) {i : Nat} {id : CacheId} {r : Resp}
    (ha : Answered s i (getCall id) r) :
    ∃ v, r = getAnswer id v ∧ (v = (w.get id).val ∨
      ∃ t q, (t, Act.got true (q, none)) ∈ s.sh.trace ∧ q.command = requestCode id + 1 ∧
        decode id q.data = some v) := by
  obtain ⟨pre, e, post, h1, h2, rfl⟩ := C37_served_concurrently h ha
  refine ⟨e.val, rfl, ?_⟩
  unfold current at h2
  match hs : (scanAll id pre).1 with
  | none => rw [hs] at h2; rw [h2]; exact .inl rfl
  | some (v, t) =>
    rw [hs] at h2
    obtain ⟨u, q, h4, h5, h6⟩ := scanAll_from pre [] (none, fun _ => .idle) (by simp) (by simp) _ hs
    refine .inr ⟨u, q, ?_, h5, ?_⟩
    · rw [h1]; exact List.mem_append_left _ (by simpa using h4)
    · rw [h2]; exact h6

theorem exact_temperature (b : UInt8) : Exact (temperatureUnmarshal b) := by
  have := (b / 2).toNat_lt
  constructor <;> unfold temperatureUnmarshal <;> omega

theorem exact_decoded {pl : List UInt8} {v : Temps} (h : decode .temps pl = some v) :
    ExactTemps (getAnswer .temps v) := by
  have hd : okVal (Temps.unmarshalBinary pl) = some v := h
  unfold Temps.unmarshalBinary at hd
  split at hd
  · cases hd
  · rename_i hl
    match pl, hl with
    | [a, b, c, d, e, f, g, h, i], _ =>
      cases hd
      exact ⟨exact_temperature a, exact_temperature b, exact_temperature c, exact_temperature d,
        exact_temperature e, exact_temperature g, exact_temperature h, exact_temperature i⟩

theorem short_decoded {pl : List UInt8} {b : BootInfo} (h : decode .boot pl = some b) :
    b.deviceName.length < 2 ^ 64 := by
  have hd : okVal (BootInfo.unmarshalBinary pl) = some b := h
  by_cases hl : pl.length = 13
  · obtain ⟨x, y, z, name, rfl, hn⟩ := list13 hl
    rw [bootInfo_list x y z name hn] at hd
    simp only [okVal, Option.some.injEq] at hd
    subst hd
    obtain ⟨p, q, h1, -⟩ := trimSpace_spec name
    have := congrArg List.length h1
    simp at this
    show (trimSpace name).length < _
    omega
  · rw [bootInfo_bad hl] at hd
    cases hd

/-- **C68** in every execution: every successful answer reaches the client as it is (up to the
time), if the caches at the start and the names that the unit has reported can be encoded. -/
theorem C68_delivered {S : Setup σ} {w : World σ} {s : Sys σ}
    (h : Reachable S (Sys.initial w) s) {i : Nat} {c : Call} {r : Resp} {m : Method}
    (ha : Answered s i c r) (hm : c.method = some m) (hok : Success m r)
    (h0 : (getAnswer .boot w.boot.val).marshals = true ∧ ShortName (getAnswer .boot w.boot.val) ∧
      ExactTemps (getAnswer .temps w.temps.val))
    (hu : c = .getBoot → ∀ t q, (t, Act.got true (q, none)) ∈ s.sh.trace → q.command = 0x68 →
      validUtf8 (q.data.drop 3) = true) :
    ∃ bs, goBody m r = some bs ∧ pyAnswer m bs = some (untimed r) := by
  have triv : c ≠ .getBoot → c ≠ .getTemps → r.marshals = true ∧ ShortName r ∧ ExactTemps r := by
    intro h1 h2
    cases c <;> simp only [Call.method, Option.some.injEq, reduceCtorEq] at hm <;> subst hm <;>
      rcases r with a | a | a | a | a | a | a | a | a | a <;> (try cases a) <;> first
      | exact False.elim hok
      | exact absurd rfl h1
      | exact absurd rfl h2
      | exact ⟨rfl, trivial, trivial⟩
  by_cases hb : c = .getBoot
  · subst hb
    cases hm
    obtain ⟨v, rfl, hv⟩ := served_from (id := .boot) h ha
    rcases hv with rfl | ⟨t, q, h1, h2, h3⟩
    · exact C68_answer _ _ hok h0.1 h0.2.1 trivial
    · exact C68_answer _ _ hok (utf8_decoded h3 (hu rfl t q h1 h2)) (short_decoded h3) trivial
  · by_cases ht : c = .getTemps
    · subst ht
      cases hm
      obtain ⟨v, rfl, hv⟩ := served_from (id := .temps) h ha
      rcases hv with rfl | ⟨t, q, h1, h2, h3⟩
      · exact C68_answer _ _ hok rfl trivial h0.2.2
      · exact C68_answer _ _ hok rfl trivial (exact_decoded h3)
    · obtain ⟨h1, h2, h3⟩ := triv hb ht
      exact C68_answer _ _ hok h1 h2 h3

/-- The hypotheses are met: the unit reports its name, and the client gets it. -/
example : ∃ s v bs, Reachable demo (Sys.initial demoStart) s ∧
    Answered s 1 .getBoot (.boot (.ok v)) ∧ v.majorVersion = 3 ∧
    goBody .getBootInfo (.boot (.ok v)) = some bs ∧
    pyAnswer .getBootInfo bs = some (.boot (.ok v)) := by
  have h2 := execs_sound (S := demo) (cmds := [.arrive (.flush 0)] ++ steps 2 (.client 0) ++
      steps 10 .worker ++ steps 2 (.client 0) ++ [.arrive .getBoot] ++ steps 3 (.client 1))
    (fun _ _ => trivial) (.start (s₀ := Sys.initial demoStart)) rfl
  obtain ⟨bs, h3, h4⟩ := C68_answer .getBootInfo (.boot (.ok ⟨3, 20, 0, [67, 65, 51, 53, 48]⟩))
    trivial rfl (by show 5 < 2 ^ 64; decide) trivial
  exact ⟨_, _, bs, h2, rfl, rfl, h3, h4⟩

/-- The bytes of an answer with a negative temperature. -/
example : goBody .getTemps (.temps (.ok ⟨21, -5, 0, 0, 0, 0, 0, 0⟩)) =
    some [13, 0, 0, 0xA8, 0x41, 21, 0, 0, 0xA0, 0xC0] := by
  have e : goMsg (goOutput .getTemps) = [pbField .float "Comfort" 1, pbField .float "OutsideAir" 2,
    pbField .float "SupplyAir" 3, pbField .float "InsideAir" 4, pbField .float "ExhaustAir" 5,
    pbField .float "GeoHeat" 6, pbField .float "Reheating" 7, pbField .float "KitchenHood" 8] := by
    rw [goMsg_eq]; rfl
  have hb : marshal (goMsg (goOutput .getTemps)) [.f32 (f32Bits 21), .f32 (f32Bits (-5)),
      .f32 (f32Bits 0), .f32 (f32Bits 0), .f32 (f32Bits 0), .f32 (f32Bits 0), .f32 (f32Bits 0),
      .f32 (f32Bits 0)] = some [13, 0, 0, 0xA8, 0x41, 21, 0, 0, 0xA0, 0xC0] := by
    rw [e]; decide
  have hs : ∀ (t : PbTemps) (bs : List UInt8), marshal (goMsg (goOutput .getTemps))
      [.f32 (f32Bits t.comfort), .f32 (f32Bits t.outsideAir),
        .f32 (f32Bits t.supplyAir), .f32 (f32Bits t.insideAir), .f32 (f32Bits t.exhaustAir),
        .f32 (f32Bits t.geoHeat), .f32 (f32Bits t.reheating), .f32 (f32Bits t.kitchenHood)] = some bs →
      goBody .getTemps (.temps (.ok t)) = some bs := fun t bs hb =>
    (py_decodes (m := .getTemps) (struct := (goStruct .getTemps (.temps (.ok t))).getD [])
      (by rw [e]; rfl) hb (by simp [Val.fits]) (by simp)).1
  exact hs _ _ hb

/-! ## C69 -/

/-- The last number in a field, if there is one. -/
def lastIn (num : Nat) (rs : List Rec) : Option Nat :=
  (rs.filterMap fun r => match r with
    | ⟨n, .varint v⟩ => if n = num then some v else none
    | _ => none).getLast?

theorem lastIn_cons (num : Nat) (r : Rec) (rs : List Rec) :
    lastIn num (r :: rs) = match lastIn num rs with
      | some v => some v
      | none => match r with
        | ⟨n, .varint v⟩ => if n = num then some v else none
        | _ => none := by
  unfold lastIn
  rw [List.filterMap_cons]
  split
  · rename_i h
    rw [h]
    split
    · rename_i h'; exact h'
    · rename_i h'; exact h'
  · rename_i b h
    rw [h, List.getLast?_cons]
    generalize (List.filterMap _ rs).getLast? = o
    cases o <;> rfl

/-- A field of a kind that is sent as a number. -/
theorem fieldVal_varint {f : FieldDesc} {conv : Nat → Val}
    (hc : ∀ r old, mergeField f r old = match r with
      | ⟨n, .varint v⟩ => some (if n = f.num then conv v else old)
      | _ => some old) (rs : List Rec) (old : Val) :
    fieldVal f rs old = some (match lastIn f.num rs with
      | none => old
      | some v => conv v) := by
  induction rs generalizing old with
  | nil => rfl
  | cons r rs ih =>
    unfold fieldVal
    rw [hc, lastIn_cons]
    rcases r with ⟨n, v | v | v | v⟩ <;> dsimp only <;> rw [ih] <;> cases lastIn f.num rs <;>
      first | rfl | skip
    dsimp only
    split <;> rfl

theorem lastVarint_eq (num : Nat) (rs : List Rec) : lastVarint num rs = (lastIn num rs).getD 0 := rfl

theorem fieldVal_u32 (name : String) (num : Nat) (rs : List Rec) :
    fieldVal (pbField .uint32 name num) rs (.u32 0) =
      some (.u32 (UInt32.ofNat (lastVarint num rs))) := by
  rw [fieldVal_varint (conv := fun v => .u32 (UInt32.ofNat v)), lastVarint_eq]
  · show some (match lastIn num rs with
      | none => _
      | some v => _) = _
    cases lastIn num rs <;> rfl
  · intro r old
    rcases r with ⟨n, v | v | v | v⟩ <;> by_cases hn : n = num <;> simp [mergeField, pbField, hn]

theorem fieldVal_bool (name : String) (num : Nat) (rs : List Rec) :
    fieldVal (pbField .bool name num) rs (.bool false) =
      some (.bool (lastVarint num rs ≠ 0)) := by
  rw [fieldVal_varint (conv := fun v => .bool (v ≠ 0)), lastVarint_eq]
  · show some (match lastIn num rs with
      | none => _
      | some v => _) = _
    cases lastIn num rs <;> rfl
  · intro r old
    rcases r with ⟨n, v | v | v | v⟩ <;> by_cases hn : n = num <;> simp [mergeField, pbField, hn]

theorem int32_bmod (v : Nat) : int32 v = Int.bmod v (2 ^ 32) := by
  unfold int32
  rw [Int.bmod_def]
  split <;> split <;> omega

theorem fieldVal_enum (e : Str) (name : String) (num : Nat) (rs : List Rec) :
    fieldVal (pbField (.enum e) name num) rs (.enum 0) =
      some (.enum (Int.bmod (lastVarint num rs) (2 ^ 32))) := by
  rw [fieldVal_varint (conv := fun v => .enum (int32 v)), lastVarint_eq]
  · show some (match lastIn num rs with
      | none => _
      | some v => _) = _
    cases lastIn num rs with
    | none => rfl
    | some v => simp [int32_bmod]
  · intro r old
    rcases r with ⟨n, v | v | v | v⟩ <;> by_cases hn : n = num <;> simp [mergeField, pbField, hn]

/-- What the server makes of a body. -/
theorem goRequest_eq (m : Method) (body : List UInt8) :
    goRequest m body = (fieldsOf body).map (asked m) := by
  unfold goRequest goUnmarshal unmarshal
  cases hf : fieldsOf body with
  | none => rfl
  | some rs =>
    cases m
    case setFanSpeed =>
      have e : goMsg (goInput .setFanSpeed) = [pbField .uint32 "Abs" 1, pbField .bool "Rel" 2] := by
        rw [goMsg_eq]; rfl
      rw [e]
      have h1 := fieldVal_u32 "Abs" 1 rs
      have h2 := fieldVal_bool "Rel" 2 rs
      simp only [allOf, pbField, Kind.zero] at h1 h2 ⊢
      rw [h1, h2]
      rfl
    case setComfortTemp =>
      have e : goMsg (goInput .setComfortTemp) = [pbField .uint32 "ComfortTemp" 1] := by
        rw [goMsg_eq]; rfl
      rw [e]
      have h1 := fieldVal_u32 "ComfortTemp" 1 rs
      simp only [allOf, pbField, Kind.zero] at h1 ⊢
      rw [h1]
      rfl
    case setFanProfile =>
      have e : goMsg (goInput .setFanProfile) =
          [pbField .uint32 "Mode" 1, pbField .uint32 "TargetSpeed" 2] := by
        rw [goMsg_eq]; rfl
      rw [e]
      have h1 := fieldVal_u32 "Mode" 1 rs
      have h2 := fieldVal_u32 "TargetSpeed" 2 rs
      simp only [allOf, pbField, Kind.zero] at h1 h2 ⊢
      rw [h1, h2]
      rfl
    case flushCache =>
      have e : goMsg (goInput .flushCache) =
          [pbField (.enum ".comfo.api.FlushCacheRequest.CacheType".toList) "Cache" 1] := by
        rw [goMsg_eq]; rfl
      rw [e]
      have h1 := fieldVal_enum ".comfo.api.FlushCacheRequest.CacheType".toList "Cache" 1 rs
      simp only [allOf, pbField, Kind.zero] at h1 ⊢
      rw [h1]
      rfl
    all_goals
      have e : goMsg 0 = [] := by rw [goMsg_eq]; rfl
      simp only [goInput, e, allOf]
      rfl

/-- **C69** Every protobuf request is either a message, and then runs what the message asks for, or
not a message, and then is rejected without any effect. -/
theorem C69_body (clean : Str → Str) (json : Method → List UInt8 → Option Call)
    (hj : ∀ {m b c}, json m b = some c → c.method = some m) (cv : FloatConv) (r : HttpReq)
    (m : Method) (h : MeantFor clean m .protobuf r) :
    (∃ rs, Message rs r.body ∧ serve clean (pbCodec json hj) cv r =
      ((asked m rs).prog cv).bind fun a => .ret a.http) ∨
    ((¬ ∃ rs, Message rs r.body) ∧ serve clean (pbCodec json hj) cv r = .ret .malformed) := by
  have hd : (pbCodec json hj).decode m .protobuf r.body = (fieldsOf r.body).map (asked m) :=
    goRequest_eq m r.body
  rcases C53_handler clean (pbCodec json hj) cv r m .protobuf h with ⟨h1, h2⟩ | ⟨c, h1, -, h2⟩
  · right
    refine ⟨?_, h2⟩
    rintro ⟨rs, hr⟩
    rw [hd, fieldsOf_iff.2 hr] at h1
    cases h1
  · left
    rw [hd] at h1
    cases hf : fieldsOf r.body with
    | none => rw [hf] at h1; cases h1
    | some rs =>
      rw [hf] at h1
      cases h1
      exact ⟨rs, fieldsOf_iff.1 hf, h2⟩

/-- **C69** The fields of a body are unique. -/
theorem C69_unique {rs rs' : List Rec} {body : List UInt8} (h : Message rs body)
    (h' : Message rs' body) : rs = rs' := by
  have := fieldsOf_iff.2 h
  rw [fieldsOf_iff.2 h'] at this
  cases this; rfl

/-- A body with an unknown field 7, a group, and the field `Abs` twice, the last time with
more than 32 bits; bodies that are cut off, have a field 0, or a group without end. -/
example : fieldsOf [58, 1, 65, 11, 8, 9, 12, 8, 3, 8, 0x82, 0x80, 0x80, 0x80, 0x10] =
      some [⟨7, .bytes [65]⟩, ⟨1, .varint 3⟩, ⟨1, .varint 4294967298⟩] ∧
    asked .setFanSpeed [⟨7, .bytes [65]⟩, ⟨1, .varint 3⟩, ⟨1, .varint 4294967298⟩] =
      .setSpeed 2 false ∧
    fieldsOf [8] = none ∧ fieldsOf [0, 0] = none ∧ fieldsOf [11, 8, 9] = none := by decide

/-- Helper for `C69_groups`: beginnings of groups are counted. -/
theorem records_deep {k : Nat} : ∀ {n : Nat} {st : List Nat} (tail : List UInt8),
    10001 < st.length + k → records n st (List.replicate k 11 ++ tail) = none ∨
      k = 0 := by
  induction k with
  | zero => intro n st tail _; exact .inr rfl
  | succ k ih =>
    intro n st tail h
    left
    cases n with
    | zero => rfl
    | succ n =>
      have ht : IsVarint (1 * 8 + 3) [11] := ⟨[], 11, rfl, by simp, by decide, by decide, rfl, by omega⟩
      rw [records_tag (rest := List.replicate k 11 ++ tail) (Nat.le_refl 1)
        (by cases st <;> simp [maxNumber]) (by omega) ht (by simp [List.replicate_succ]), if_pos rfl]
      split
      · rename_i hl
        simp only [maxGroups] at hl
        rcases ih (n := n) (st := 1 :: st) tail (by simp; omega) with h' | h'
        · exact h'
        · omega
      · rfl

/-- **C69** Groups may be nested 10001 deep and no deeper: `k` groups within each other. -/
theorem C69_groups (k : Nat) :
    (∃ rs, Message rs (List.replicate k 11 ++ List.replicate k 12)) ↔ k ≤ 10001 := by
  have ht : IsVarint (1 * 8 + 3) [11] := ⟨[], 11, rfl, by simp, by decide, by decide, rfl, by omega⟩
  have ht' : IsVarint (1 * 8 + 4) [12] := ⟨[], 12, rfl, by simp, by decide, by decide, rfl, by omega⟩
  have he : ∀ j, List.replicate (j + 1) (11 : UInt8) ++ List.replicate (j + 1) 12 =
      [11] ++ (List.replicate j 11 ++ List.replicate j 12) ++ [12] ++ [] := by
    intro j
    rw [List.replicate_succ, List.replicate_succ' (n := j) (a := (12 : UInt8))]
    simp
  constructor
  · rintro ⟨rs, h⟩
    have h := fieldsOf_iff.2 h
    refine Classical.byContradiction fun hk => ?_
    unfold fieldsOf at h
    rcases records_deep (k := k) (n := (List.replicate k (11 : UInt8) ++ List.replicate k 12).length + 1)
      (st := [])
      (List.replicate k 12) (by simp; omega) with h' | h'
    · rw [h'] at h; cases h
    · omega
  · intro hk
    have hin : ∀ j d, j ≤ d → Inside d (List.replicate j 11 ++ List.replicate j 12) := by
      intro j
      induction j with
      | zero => intro d _; exact .nil
      | succ j ih =>
        intro d hd
        match d, hd with
        | d + 1, hd =>
          rw [he]
          exact .group (Nat.le_refl 1) (by omega) ht (ih d (by omega)) ht' .nil
    match k, hk with
    | 0, _ => exact ⟨[], .nil⟩
    | j + 1, hk =>
      rw [he]
      exact ⟨[], .group ⟨Nat.le_refl 1, by omega⟩ ht (hin j 10000 (by omega)) ht' .nil⟩

/-- The number 2^29 is too great for a field but not for one inside a group. -/
example : fieldsOf [0x80, 0x80, 0x80, 0x80, 0x10, 5] = none ∧
    fieldsOf [11, 0x80, 0x80, 0x80, 0x80, 0x10, 5, 12] = some [] ∧
    fieldsOf [11, 19, 20, 12, 8, 2] = some [⟨1, .varint 2⟩] ∧ fieldsOf [11, 19, 12, 20] = none := by
  decide

/-- **C37** The zero value is the message without fields: its body is empty. -/
theorem C37_zero (id : CacheId) :
    ∃ m, (getCall id).method = some m ∧ goBody m (getAnswer id (zeroEntry id).val) = some [] := by
  cases id <;> exact ⟨_, rfl, by decide +kernel⟩

end Comfo.Props
