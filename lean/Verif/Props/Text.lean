import Verif.Lemmas.Text
import Verif.Props.GoClient
import Verif.Props.Timed
import Verif.Props.Requests
/-!
# Texts in answers and errors: C80, C83, C84
-/
namespace Comfo.Props
open Spec Comfo.Pb Comfo.Twirp

/-! ## C80 -/

theorem fits_method (cv : FloatConv) (c : Call) :
    (c.prog cv).Post fun _ r => ∀ m, c.method = some m → reqTimeOf r ≠ none → Success m r := by
  cases c with
  | flush t =>
    intro start b stop m hm hx
    cases hm; trivial
  | _ =>
    exact Prog.Post.map ((post_true _).mono fun _ r _ m hm hx => by
      cases hm <;> cases r <;> first | exact absurd rfl hx | trivial)

/-- **C80** The `ReqTime` a Go client returns is the text of a duration, as Go reads it, that is true:
not negative, at most the time from the arrival of the request to its last action, and covering every
pause and every timeout of the request. -/
theorem C80_text (J : JsonLib) (json : Method → Bytes → Option Call)
    (hj : ∀ {m b c}, json m b = some c → c.method = some m) (hJ : Lawful J json)
    (clean : Str → Str) (hc : ∀ m, clean (routeOf m) = routeOf m)
    (base : Url) (hp : base.path = []) (f : Fmt) {S : Setup σ} {w : World σ} {c : Timed σ}
    (h : Clocked S (Sys.initial w) c) {i : Nat} {call : Call} {r : Resp} {m : Method}
    (hA : Answered c.sys i call r) (hm : call.method = some m) (ha : ArgFits call)
    (hx : reqTimeOf r ≠ none) :
    ∃ snt, Carries clean (pbCodec json hj) S.cv base f m call snt ∧
      ∀ (ω : Type) (n : Net ω) (w : ω) (W : Wording), Undisturbed n →
        (n.exchange snt w).1 = .ok (respond J W f m snt.req r.http) →
        ∃ s t x a e, (goClient J n f base m (goArg call) w).1 = .ok s ∧
          s.lookup (reqTimeField m) = some (.str t) ∧ readDuration t = some x ∧
          Took c i a e ∧ 0 ≤ x ∧ x ≤ e - a ∧
          min (waited (actsOf (.client i) c.sys.sh.trace) : Int) 9223372036854775807 ≤ x := by
  have hok := (fits_method S.cv call).answered (timed_reach h) hA m hm hx
  obtain ⟨x, hx⟩ := Option.ne_none_iff_exists'.mp hx
  obtain ⟨a, e, h1, h2, h3, h4⟩ := C80_req_time h hA hx
  have hr := timed_reach h
  have hxb : x.natAbs < 10 ^ 20 := by
    obtain ⟨t, mid, t', tail, e1, e2, e3⟩ := (framed S.cv call).answered hr hA x hx
    subst e2
    unfold timeSub
    omega
  have hb : r.marshals = true ∧ ShortName r ∧ ExactTemps r := by
    cases m <;> rcases r with a | a | a | a | a | a | a | a | a | a <;> (try cases a) <;> first
      | exact False.elim hok
      | exact ⟨rfl, trivial, trivial⟩
      | cases hx
  obtain ⟨snt, h5, h6⟩ := C78_answer J json hj hJ clean hc S.cv base hp f call m hm ha
  refine ⟨snt, h5, fun ω n w W hn he => ⟨_, durString x, x, a, e, h6 ω n w W r hn hok hb.1 hb.2.1 hb.2.2 he, ?_,
    read_durString x hxb, h1, h2, h3, h4⟩⟩
  cases m <;> rcases r with a | a | a | a | a | a | a | a | a | a <;> (try cases a) <;> first
    | exact False.elim hok
    | (cases hx; rfl)
    | cases hx

/-! ## C83 -/

def textTable : List (Bytes × SrvErr) :=
  let W : Wording := ⟨[], [], fun _ => [], [], [], [], fun _ => []⟩
  ([SrvErr.pollFailed] ++ [Err.pktLen, .payloadSize, .verifyChecksum, .tooShort, .tooLong, .timeout,
    .scanInput, .ack, .invalidResponse, .tooHigh, .tooLow, .requestType, .responseType, .decodeNil,
    .zeroValue, .notExist, .unknownMode].map SrvErr.lib).map fun x => (errorText W x, x)

theorem text_table (W : Wording) (x : SrvErr) (h : x ≠ .lib .io) :
    textTable.lookup (errorText W x) = some x := by
  rcases x with e | _
  · cases e <;> first
      | exact absurd rfl h
      | (simp only [errorText]; decide +kernel)
  · simp only [errorText]; decide +kernel

theorem quoted_speed (v : UInt8) :
    quoted (lit "FanSpeed" ++ lit " " ++ (Refusal.speedRange v).validationMsg) = some v.toNat := by
  have key : ∀ n, n < 256 → quoted (lit "FanSpeed" ++ lit " " ++
      (lit "value '" ++ digits 20 n ++ lit "' out of range")) = some (n : Int) := by decide +kernel
  exact key v.toNat v.toNat_lt

def initial : Refusal → UInt8
  | .bothAbsRel => 65
  | .speedRange _ => 70
  | .tempTooLarge => 67
  | .modeRange => 77
  | .targetRange => 84

theorem initial_eq (a : Refusal) (t : Bytes) : (lit (refused a) ++ t).head? = some (initial a) := by
  cases a <;> simp [refused, lit, initial]

/-- **C83** Errors with the same code and text have the same cause. -/
theorem same_cause {W : Wording} (hW : Foreign W) {e₁ e₂ : Comfo.Twirp} {x₁ x₂ : TwErr}
    (h₁ : ErrorFor W e₁ x₁) (h₂ : ErrorFor W e₂ x₂) (hc : x₁.code = x₂.code) (hm : x₁.msg = x₂.msg) :
    e₁ = e₂ := by
  cases e₁ with
  | invalidArgument a =>
    cases e₂ with
    | invalidArgument b =>
      obtain ⟨-, h1, -⟩ := h₁
      obtain ⟨-, h2, -⟩ := h₂
      have h : lit (refused a) ++ lit " " ++ a.validationMsg =
        lit (refused b) ++ lit " " ++ b.validationMsg := by rw [← h1, ← h2, hm]
      have hi := (initial_eq a _).symm.trans ((congrArg List.head? (by
        simpa only [List.append_assoc] using h)).trans (initial_eq b _))
      simp only [Option.some.injEq] at hi
      by_cases hs : (∃ v, a = .speedRange v) ∧ ∃ w, b = .speedRange w
      · obtain ⟨⟨v, rfl⟩, w, rfl⟩ := hs
        have k := quoted_speed v
        have h' : lit "FanSpeed" ++ lit " " ++ (Refusal.speedRange v).validationMsg =
          lit "FanSpeed" ++ lit " " ++ (Refusal.speedRange w).validationMsg := h
        rw [h', quoted_speed w] at k
        have k := Option.some.inj k
        rw [show v = w from UInt8.toNat_inj.mp (by omega)]
      · cases a <;> cases b <;> first
          | rfl
          | (simp [initial] at hi; done)
          | exact absurd ⟨⟨_, rfl⟩, _, rfl⟩ hs
    | internal y => rw [h₁.1, h₂.1] at hc; cases hc
  | internal x =>
    cases e₂ with
    | invalidArgument b => rw [h₁.1, h₂.1] at hc; cases hc
    | internal y =>
      have h : errorText W x = errorText W y := by rw [← h₁.2, ← h₂.2, hm]
      by_cases hx : x = .lib .io
      · by_cases hy : y = .lib .io
        · rw [hx, hy]
        · subst hx; exact absurd h.symm (hW y hy)
      · by_cases hy : y = .lib .io
        · subst hy; exact absurd h (hW x hx)
        · have := text_table W x hx
          rw [h, text_table W y hy] at this
          cases this; rfl

/-- **C83** Two requests that failed at a handler: the clients return errors of the same code and text
if and only if the handlers failed for the same reason. -/
theorem C83_cause (J : JsonLib) (json : Method → Bytes → Option Call)
    (hj : ∀ {m b c}, json m b = some c → c.method = some m) (hJ : Lawful J json)
    (clean : Str → Str) (hc : ∀ m, clean (routeOf m) = routeOf m) (cv : FloatConv)
    (base : Url) (hp : base.path = []) (f : Fmt) (c₁ c₂ : Call) (m₁ m₂ : Method)
    (hm₁ : c₁.method = some m₁) (hm₂ : c₂.method = some m₂) (ha₁ : ArgFits c₁) (ha₂ : ArgFits c₂) :
    ∃ snt₁ snt₂, Carries clean (pbCodec json hj) cv base f m₁ c₁ snt₁ ∧
      Carries clean (pbCodec json hj) cv base f m₂ c₂ snt₂ ∧
      ∀ (ω : Type) (n : Net ω) (w₁ w₂ : ω) (W : Wording) (r₁ r₂ : Resp) (e₁ e₂ : Comfo.Twirp),
        Undisturbed n → Foreign W → r₁.error? = some e₁ → r₂.error? = some e₂ →
        TextOf W e₁ → TextOf W e₂ →
        (n.exchange snt₁ w₁).1 = .ok (respond J W f m₁ snt₁.req r₁.http) →
        (n.exchange snt₂ w₂).1 = .ok (respond J W f m₂ snt₂.req r₂.http) →
        ∃ x₁ x₂, (goClient J n f base m₁ (goArg c₁) w₁).1 = .error x₁ ∧
          (goClient J n f base m₂ (goArg c₂) w₂).1 = .error x₂ ∧
          (x₁.code = x₂.code ∧ x₁.msg = x₂.msg ↔ e₁ = e₂) := by
  obtain ⟨s₁, h1, k1⟩ := C79_error J json hj hJ clean hc cv base hp f c₁ m₁ hm₁ ha₁
  obtain ⟨s₂, h2, k2⟩ := C79_error J json hj hJ clean hc cv base hp f c₂ m₂ hm₂ ha₂
  refine ⟨s₁, s₂, h1, h2, ?_⟩
  intro ω n w₁ w₂ W r₁ r₂ e₁ e₂ hn hW he₁ he₂ ht₁ ht₂ hx₁ hx₂
  obtain ⟨x₁, a1, b1, -⟩ := k1 ω n w₁ W r₁ e₁ _ hn he₁ ht₁ rfl hx₁
  obtain ⟨x₂, a2, b2, -⟩ := k2 ω n w₂ W r₂ e₂ _ hn he₂ ht₂ rfl hx₂
  refine ⟨x₁, x₂, a1, a2, fun h => same_cause hW b1 b2 h.1 h.2, ?_⟩
  rintro rfl
  cases e₁ with
  | invalidArgument a => exact ⟨b1.1.trans b2.1.symm, b1.2.1.trans b2.2.1.symm⟩
  | internal x => exact ⟨b1.1.trans b2.1.symm, b1.2.trans b2.2.symm⟩

theorem modify_quotes {mode : UInt8} {abs : UInt32} {rel : Bool} {b : UInt8} {e : Comfo.Twirp}
    (h : modifySpeed mode abs rel = (b, some e)) :
    e = .invalidArgument .bothAbsRel ∨ ∃ v, e = .invalidArgument (.speedRange v) ∧
      (v.toNat : Int) = askedSpeed mode abs rel % 256 := by
  have hb := mode.toNat_lt
  have e1 : (mode + 1).toNat = (mode.toNat + 1) % 256 := by simp [UInt8.toNat_add]
  have e2 : (mode - 1).toNat = (255 + mode.toNat) % 256 := by simp [UInt8.toNat_sub]
  have e3 : abs.toUInt8.toNat = abs.toNat % 256 := by simp
  unfold modifySpeed at h
  unfold askedSpeed
  by_cases ha : abs = 0 <;> cases rel <;> simp only [ha, ne_eq, not_true_eq_false, not_false_eq_true,
    and_true, and_false, and_self, false_and, if_true, if_false, Bool.false_eq_true] at h ⊢
  · split at h <;> cases h
    exact .inr ⟨_, rfl, by omega⟩
  · split at h <;> cases h
    exact .inr ⟨_, rfl, by omega⟩
  · split at h <;> cases h
    exact .inr ⟨_, rfl, by omega⟩
  · cases h; exact .inl rfl

theorem modify_fault {mode : UInt8} {abs : UInt32} {rel : Bool} {a : Refusal} :
    (∃ b, modifySpeed mode abs rel = (b, some (.invalidArgument a))) ↔
      Fault mode (.setSpeed abs rel) a := by
  have hb := mode.toNat_lt
  have hrange : ∀ v : UInt8, (v < 1 ∨ v > 4) ↔ ¬ (1 ≤ v.toNat ∧ v.toNat ≤ 4) := by
    intro v
    have c1 : (1 : UInt8).toNat = 1 := rfl
    have c4 : (4 : UInt8).toNat = 4 := rfl
    rw [gt_iff_lt, u8_lt, u8_lt]; omega
  have hval : ∀ v w : UInt8, v = w ↔ (v.toNat : Int) = w.toNat := fun v w => by
    rw [← UInt8.toNat_inj]; omega
  have e1 : (mode + 1).toNat = (mode.toNat + 1) % 256 := by simp [UInt8.toNat_add]
  have e2 : (mode - 1).toNat = (255 + mode.toNat) % 256 := by simp [UInt8.toNat_sub]
  have e3 : abs.toUInt8.toNat = abs.toNat % 256 := by simp
  have key : ∀ v : UInt8, (v.toNat : Int) = askedSpeed mode abs rel % 256 → (abs = 0 ∨ rel = false) →
      ((∃ b, (if v < 1 ∨ v > 4 then (mode, some (Twirp.invalidArgument (.speedRange v))) else (v, none)) =
        (b, some (.invalidArgument a))) ↔ Fault mode (.setSpeed abs rel) a) := by
    intro v hv hor
    by_cases hr : v < 1 ∨ v > 4
    · rw [if_pos hr]
      have hr' := (hrange v).mp hr
      constructor
      · rintro ⟨b, hb⟩
        cases hb
        exact ⟨hor, hv, hr'⟩
      · intro hf
        cases a with
        | speedRange w =>
          obtain ⟨-, h2, -⟩ := hf
          have : v = w := (hval v w).mpr (hv.trans h2.symm)
          exact ⟨mode, by rw [this]⟩
        | bothAbsRel => rcases hor with h | h <;> simp [Fault, h] at hf
        | _ => exact False.elim hf
    · rw [if_neg hr]
      constructor
      · rintro ⟨b, hb⟩; cases hb
      · intro hf
        cases a with
        | speedRange w =>
          obtain ⟨-, h2, h3⟩ := hf
          have : v = w := (hval v w).mpr (hv.trans h2.symm)
          exact absurd ((hrange v).mpr (this ▸ h3)) hr
        | bothAbsRel => rcases hor with h | h <;> simp [Fault, h] at hf
        | _ => exact False.elim hf
  unfold modifySpeed
  by_cases ha : abs = 0
  · have hk := fun v hv => key v hv (.inl ha)
    clear key
    subst ha
    cases rel
    · exact hk (mode - 1) (by
        simp only [askedSpeed, ne_eq, not_true_eq_false, if_false, Bool.false_eq_true, e2]; omega)
    · exact hk (mode + 1) (by
        simp only [askedSpeed, ne_eq, not_true_eq_false, if_false, if_true, e1]; omega)
  · cases rel
    · simp only [ha, ne_eq, not_false_eq_true, Bool.false_eq_true, and_false, if_false, if_true]
      exact key abs.toUInt8 (by
        simp only [askedSpeed, ha, ne_eq, not_false_eq_true, if_true, e3]; omega) (.inr rfl)
    · simp only [ha, ne_eq, not_false_eq_true, and_self, if_true]
      constructor
      · rintro ⟨b, hb⟩; cases hb; exact ⟨ha, rfl⟩
      · intro hf
        cases a with
        | bothAbsRel => exact ⟨0, rfl⟩
        | speedRange w =>
          rcases hf.1 with h | h
          · exact absurd h ha
          · cases h
        | _ => exact False.elim hf

theorem post_get_ok {id : CacheId} {g : CVal id → β} (k : Rpc β → Resp)
    (hk : ∀ v, (k (.ok v)).error? = none) :
    ((protobuf id g).map k).Post fun _ r => r.error? = none := by
  simp only [protobuf, Prog.map, Prog.bind, Prog.Post]
  exact fun _ => hk _

/-- **C83** A request is refused for a reason exactly if there is this reason to refuse it. -/
theorem C83_reason {S : Setup σ} {w : World σ} {s : Sys σ} (h : Reachable S (Sys.initial w) s)
    {i : Nat} {c : Call} {r : Resp} (ha : Answered s i c r) :
    ∃ mode, FoundMode c (actsOf (.client i) s.sh.trace) mode ∧
      ∀ a, r.error? = some (.invalidArgument a) ↔ Fault mode c a := by
  have none : (∀ abs rel, c ≠ .setSpeed abs rel) → (∀ a, ¬ Fault 0 c a) →
      (c.prog S.cv).Post (fun _ r => r.error? = none) → ∃ mode,
      FoundMode c (actsOf (.client i) s.sh.trace) mode ∧
        ∀ a, r.error? = some (.invalidArgument a) ↔ Fault mode c a := by
    intro h1 h2 h3
    have := h3.answered h ha
    exact ⟨0, fun abs rel e => absurd e (h1 abs rel), fun a => ⟨fun e => by simp [this] at e,
      fun e => absurd e (h2 a)⟩⟩
  have lib : ∀ {α : Type} (p : Prog α) (k : α → Resp), (∀ v, (k v).error? = Option.none) →
      (p.map k).Post fun _ r => r.error? = Option.none := fun p k hk =>
    ((post_true p).mono (fun _ v _ => hk v)).map
  cases c with
  | setSpeed abs rel =>
    obtain ⟨x, e, hx⟩ := Prog.Post.answered (c := .setSpeed abs rel)
      (P := fun acts r => ∃ x, r = .speed x ∧ SpeedActs abs rel acts x)
      ((post_setFanSpeed abs rel).mono (fun _ x hx => ⟨x, rfl, hx⟩)).map h ha
    subst e
    have key : ∀ (t : Int) (p : Entry FanProfiles) rest,
        actsOf (.client i) s.sh.trace = .now t :: .lock .fan :: .load .profiles p :: rest →
        (∀ a, x = .err (.invalidArgument a) ↔
          ∃ b, modifySpeed p.val.currentMode abs rel = (b, some (.invalidArgument a))) →
        ∃ mode, FoundMode (.setSpeed abs rel) (actsOf (.client i) s.sh.trace) mode ∧
          ∀ a, (Resp.speed x).error? = some (.invalidArgument a) ↔ Fault mode (.setSpeed abs rel) a := by
      intro t p rest e1 e2
      refine ⟨p.val.currentMode, fun _ _ _ => ⟨t, p, rest, e1, rfl⟩, fun a => ?_⟩
      rw [← modify_fault, ← e2]
      cases x <;> simp [Resp.error?]
    generalize hacts : actsOf (.client i) s.sh.trace = acts at hx key
    cases hx with
    | rejected t p b e hm =>
      refine key t p _ rfl fun a => ⟨fun e' => ?_, ?_⟩
      · cases e'; exact ⟨b, hm⟩
      · rintro ⟨b', h'⟩; rw [hm] at h'; cases h'; rfl
    | same t p stop hm =>
      refine key t p _ rfl fun a => ⟨fun e' => (by cases e'), ?_⟩
      rintro ⟨b', h'⟩; rw [hm] at h'; cases h'
    | setFailed t p m sa e hm =>
      refine key t p _ rfl fun a => ⟨fun e' => (by cases e'), ?_⟩
      rintro ⟨b', h'⟩; rw [hm] at h'; cases h'
    | noTarget t p m sa q e hm =>
      refine key t p _ rfl fun a => ⟨fun e' => (by cases e'), ?_⟩
      rintro ⟨b', h'⟩; rw [hm] at h'; cases h'
    | pollFailed t p m sa q x y pa e hm =>
      refine key t p _ rfl fun a => ⟨fun e' => (by cases e'), ?_⟩
      rintro ⟨b', h'⟩; rw [hm] at h'; cases h'
    | set t p m sa q x y pa u stop hm =>
      refine key t p _ rfl fun a => ⟨fun e' => (by cases e'), ?_⟩
      rintro ⟨b', h'⟩; rw [hm] at h'; cases h'
  | setProfile m t =>
    obtain ⟨x, e, hx⟩ := Prog.Post.answered (c := .setProfile m t)
      (P := fun acts r => ∃ x, r = .speed x ∧ ProfileRpcActs m t acts x)
      ((post_setFanProfileRpc m t).mono (fun _ x hx => ⟨x, rfl, hx⟩)).map h ha
    subst e
    refine ⟨0, fun _ _ e => (by cases e), fun a => ?_⟩
    have em : m.toUInt8.toNat = m.toNat % 256 := by simp
    have et : t.toUInt8.toNat = t.toNat % 256 := by simp
    have c1 : (1 : UInt8).toNat = 1 := rfl
    have c4 : (4 : UInt8).toNat = 4 := rfl
    have c15 : (15 : UInt8).toNat = 15 := rfl
    have c100 : (100 : UInt8).toNat = 100 := rfl
    have k1 : (m.toUInt8 < 1 ∨ m.toUInt8 > 4) ↔ ¬ (1 ≤ m.toNat % 256 ∧ m.toNat % 256 ≤ 4) := by
      rw [gt_iff_lt, u8_lt, u8_lt]; omega
    have k2 : (t.toUInt8 < 15 ∨ t.toUInt8 > 100) ↔ ¬ (15 ≤ t.toNat % 256 ∧ t.toNat % 256 ≤ 100) := by
      rw [gt_iff_lt, u8_lt, u8_lt]; omega
    have not1 : ¬ (m.toUInt8 < 1 ∨ m.toUInt8 > 4) → 1 ≤ m.toNat % 256 ∧ m.toNat % 256 ≤ 4 := by
      intro h; rw [k1] at h; omega
    have bad : ∀ (y : Resp) (b : Refusal), y.error? = some (.invalidArgument b) →
        Fault 0 (.setProfile m t) b → (∀ a, Fault 0 (.setProfile m t) a → a = b) →
        ∀ a, y.error? = some (.invalidArgument a) ↔ Fault 0 (.setProfile m t) a := by
      intro y b e1 e2 e3 a
      rw [e1]
      exact ⟨fun e => by cases e; exact e2, fun e => by rw [e3 a e]⟩
    have good : ∀ (y : Resp), (∀ a, y.error? ≠ some (.invalidArgument a)) →
        ¬ (m.toUInt8 < 1 ∨ m.toUInt8 > 4) → ¬ (t.toUInt8 < 15 ∨ t.toUInt8 > 100) →
        ∀ a, y.error? = some (.invalidArgument a) ↔ Fault 0 (.setProfile m t) a := by
      intro y e1 h1 h2 a
      refine ⟨fun e => absurd e (e1 a), fun e => ?_⟩
      cases a with
      | modeRange => exact absurd (not1 h1) e
      | targetRange => exact absurd (k2.mpr e.2) h2
      | _ => exact e.elim
    generalize actsOf (.client i) s.sh.trace = acts at hx
    cases hx with
    | badMode t' h1 =>
      exact bad _ .modeRange rfl (k1.mp h1) (fun a hf => by
        cases a with
        | modeRange => rfl
        | targetRange => exact absurd hf.1 (k1.mp h1)
        | _ => exact hf.elim) a
    | badSpeed t' h1 h2 =>
      exact bad _ .targetRange rfl ⟨not1 h1, k2.mp h2⟩ (fun a hf => by
        cases a with
        | modeRange => exact absurd (not1 h1) hf
        | targetRange => rfl
        | _ => exact hf.elim) a
    | same t' p stop h1 h2 => exact good _ (fun _ e => by cases e) h1 h2 a
    | setFailed t' p sa e h1 h2 => exact good _ (fun _ e => by cases e) h1 h2 a
    | set t' p sa u stop h1 h2 => exact good _ (fun _ e => by cases e) h1 h2 a
  | setComfort v =>
    obtain ⟨x, e, hx⟩ := Prog.Post.answered (c := .setComfort v)
      (P := fun acts r => ∃ x, r = .comfort x ∧ ComfortActs S.cv v acts x)
      ((post_setComfortTemp S.cv v).mono (fun _ x hx => ⟨x, rfl, hx⟩)).map h ha
    subst e
    refine ⟨0, fun _ _ e => (by cases e), fun a => ?_⟩
    have k : v > 255 ↔ 255 < v.toNat := by rw [gt_iff_lt, UInt32.lt_iff_toNat_lt]; rfl
    generalize actsOf (.client i) s.sh.trace = acts at hx
    cases hx with
    | rejected t p h1 => cases a <;> simp_all [Resp.error?, Fault]
    | same t p stop h1 => cases a <;> simp_all [Resp.error?, Fault]
    | setFailed t p sa e h1 => cases a <;> simp_all [Resp.error?, Fault]
    | set t p sa u stop h1 => cases a <;> simp_all [Resp.error?, Fault]
  | flush t => exact none (by intros; nofun) (by intros a; cases a <;> nofun) (by
      simp only [Call.prog, flushCacheRpc, Prog.map, Prog.bind, Prog.Post]
      intros; rfl)
  | getBoot => exact none (by intros; nofun) (by intros a; cases a <;> nofun) (post_get_ok _ fun _ => rfl)
  | getBypass => exact none (by intros; nofun) (by intros a; cases a <;> nofun) (post_get_ok _ fun _ => rfl)
  | getErrors => exact none (by intros; nofun) (by intros a; cases a <;> nofun) (post_get_ok _ fun _ => rfl)
  | getFans => exact none (by intros; nofun) (by intros a; cases a <;> nofun) (post_get_ok _ fun _ => rfl)
  | getProfiles => exact none (by intros; nofun) (by intros a; cases a <;> nofun) (post_get_ok _ fun _ => rfl)
  | getTemps => exact none (by intros; nofun) (by intros a; cases a <;> nofun) (post_get_ok _ fun _ => rfl)
  | _ => exact none (by intros; nofun) (by intros a; cases a <;> nofun) (lib _ _ fun _ => rfl)

/-! ## C84 -/

/-- **C84** (violated) `SetFanSpeed` with Abs = 300 is refused because of the value '44', and a step
down while the cache holds mode 0 because of the value '255'. -/
theorem C84_quoted_violated : ∃ s, Reachable demo (Sys.initial demoStart) s ∧
    (∃ a t c, Answered s 0 (.setSpeed 300 false) (.speed (.err a)) ∧
      actsOf (.client 0) s.sh.trace = [.now t, .lock .fan, .load .profiles c, .unlock .fan] ∧
      askedSpeed c.val.currentMode 300 false = 300 ∧
      ∀ W x, SameError x (handlerError W .setFanSpeed a) → quoted x.msg = some 44) ∧
    (∃ a t c, Answered s 1 (.setSpeed 0 false) (.speed (.err a)) ∧
      actsOf (.client 1) s.sh.trace = [.now t, .lock .fan, .load .profiles c, .unlock .fan] ∧
      askedSpeed c.val.currentMode 0 false = -1 ∧
      ∀ W x, SameError x (handlerError W .setFanSpeed a) → quoted x.msg = some 255) := by
  have h2 := execs_sound (S := demo) (cmds := [.arrive (.setSpeed 300 false)] ++ steps 4 (.client 0) ++
      [.arrive (.setSpeed 0 false)] ++ steps 4 (.client 1))
    (fun _ _ => trivial) (.start (s₀ := Sys.initial demoStart)) rfl
  refine ⟨_, h2, ⟨.invalidArgument (.speedRange 44), _, _, rfl, rfl, rfl, fun W x h => ?_⟩,
    .invalidArgument (.speedRange 255), _, _, rfl, rfl, rfl, fun W x h => ?_⟩
  · exact (congrArg quoted (handler_seen h).2.1).trans (quoted_speed 44)
  · exact (congrArg quoted (handler_seen h).2.1).trans (quoted_speed 255)

/-- **C84**, the true part: in every interleaving, when `SetFanSpeed` refuses a speed as out of range,
the error the client gets quotes the speed asked for, relative to the mode the request found in the
cache, modulo 256: the speed itself, if it is a number from 0 to 255.
*Missing from the full property:* values of Abs above 255, and steps down from mode 0, which the
violations are about. -/
theorem C84_quoted_partial {S : Setup σ} {w : World σ} {s : Sys σ} (h : Reachable S (Sys.initial w) s)
    {i : Nat} {abs : UInt32} {rel : Bool} {e : Comfo.Twirp} {a : Refusal}
    (ha : Answered s i (.setSpeed abs rel) (.speed (.err e))) (he : e = .invalidArgument a)
    (W : Wording) {x : TwErr} (hx : SameError x (handlerError W .setFanSpeed e))
    (hf : x.get (lit "argument") = lit "FanSpeed") :
    ∃ t c, actsOf (.client i) s.sh.trace = [.now t, .lock .fan, .load .profiles c, .unlock .fan] ∧
      quoted x.msg = some (askedSpeed c.val.currentMode abs rel % 256) := by
  subst he
  have hx := handler_seen hx
  have hs := speed_answered h ha
  generalize hacts : actsOf (.client i) s.sh.trace = acts at hs
  generalize hr : (Rpc.err (.invalidArgument a) : Rpc SpeedModified) = r at hs
  cases hs with
  | rejected t c b e hmod =>
    cases hr
    refine ⟨t, c, rfl, ?_⟩
    rcases modify_quotes hmod with h1 | ⟨v, h1, h2⟩
    · cases h1
      obtain ⟨-, -, k⟩ := hx
      exact absurd (k.symm.trans hf) (by decide +kernel)
    · cases h1
      obtain ⟨-, k, -⟩ := hx
      rw [k, ← h2]
      exact quoted_speed v
  | pollFailed t c m sa p y z pa e h1 h2 h3 h4 h5 => cases hr
  | _ => cases hr

/-! ## The hypotheses are met -/

/-- C80: two answers with a time, as a client sees and reads them. -/
example : (answerFields (.flushed (.ok ⟨true, 6000312500⟩))).lookup 2 = some (.str (lit "6.0003125s")) ∧
    readDuration (lit "6.0003125s") = some 6000312500 ∧
    (answerFields (.speed (.ok ⟨true, 1, 2, 93000000000⟩))).lookup 4 = some (.str (lit "1m33s")) ∧
    readDuration (lit "1m33s") = some 93000000000 := by decide +kernel

/-- C83: the texts of the sample are not ours, and two clients that are told why their requests
failed. -/
example : Foreign toyWording ∧
    (handlerError toyWording .setFanSpeed (.internal .pollFailed)).msg =
      lit "failure polling result after set operation" ∧
    (handlerError toyWording .setFanProfile (.internal (.lib .timeout))).msg =
      lit "operation timed out" ∧
    (handlerError toyWording .setFanProfile (.internal (.lib .timeout))).get (lit "cause") =
      lit "*errors.errorString" := by
  refine ⟨?_, by decide +kernel, by decide +kernel, by decide +kernel⟩
  intro x hx h
  have := text_table toyWording x hx
  rw [h] at this
  exact absurd this (by
    rw [show textTable.lookup toyWording.io = none by decide +kernel]; simp)

/-- C83: requests with faults of every kind: at mode 3, Abs with Rel, Abs = 300, a step up from mode
4 and Abs = 0 without Rel at mode 1; mode 5 and target 14. -/
example : Fault 3 (.setSpeed 2 true) .bothAbsRel ∧ Fault 3 (.setSpeed 300 false) (.speedRange 44) ∧
    Fault 4 (.setSpeed 0 true) (.speedRange 5) ∧ Fault 1 (.setSpeed 0 false) (.speedRange 0) ∧
    Fault 0 (.setProfile 5 14) .modeRange ∧ Fault 0 (.setProfile 2 14) .targetRange ∧
    ¬ Fault 0 (.setProfile 2 15) .targetRange ∧ Fault 0 (.setComfort 256) .tempTooLarge := by
  refine ⟨⟨?_, rfl⟩, ⟨.inr rfl, ?_⟩, ⟨.inl rfl, ?_⟩, ⟨.inl rfl, ?_⟩, ?_, ?_, ?_, ?_⟩ <;>
    try decide
  all_goals simp only [Fault]; decide

/-- C84: Abs = 7 is refused because of the value '7'. -/
example : ∃ s a, Reachable demo (Sys.initial demoStart) s ∧
    Answered s 0 (.setSpeed 7 false) (.speed (.err (.invalidArgument a))) ∧
    (handlerError toyWording .setFanSpeed (.invalidArgument a)).get (lit "argument") = lit "FanSpeed" ∧
    quoted (handlerError toyWording .setFanSpeed (.invalidArgument a)).msg = some 7 := by
  have h2 := execs_sound (S := demo) (cmds := [.arrive (.setSpeed 7 false)] ++ steps 4 (.client 0))
    (fun _ _ => trivial) (.start (s₀ := Sys.initial demoStart)) rfl
  exact ⟨_, .speedRange 7, h2, rfl, by decide +kernel, by decide +kernel⟩

end Comfo.Props
