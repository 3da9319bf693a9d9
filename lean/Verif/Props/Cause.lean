import Verif.Props.Requests
import Verif.Props.Text
import Verif.Props.Startup
import Verif.Spec.Cause
/-!
# C85: a request fails if and only if something went wrong, and with the error of that
-/
namespace Comfo.Props
open Spec

theorem dialogue_append (a b : List Act) : dialogue (a ++ b) = dialogue a ++ dialogue b := by
  simp [dialogue]

theorem dialogue_query {cmd : UInt8} {data : List UInt8} {x : Bool} {acts : List Act}
    {r : Packet × Option Err} (h : QueryActs cmd data x acts r) :
    Transaction cmd data x (dialogue acts) r := by
  obtain ⟨evs, ht, rfl⟩ := h
  have : dialogue (.lock .pm :: evs.map toAct ++ [.unlock .pm]) = evs := by
    cases ht <;> rfl
  rw [this]; exact ht

theorem dialogue_set {inp : SetRequest} {bin : List UInt8} {acts : List Act} {e : Option Err}
    (hb : inp.marshalBinary = (bin, none)) (h : SetActs inp acts e) :
    ∃ q, Transaction inp.requestType bin false (dialogue acts) (q, e) := by
  rcases h with ⟨bin', q, h1, h2⟩ | ⟨rfl, bin', e', h1, h2⟩
  · rw [hb] at h1; cases h1
    exact ⟨q, dialogue_query h2⟩
  · rw [hb] at h1; cases h1

theorem speed_bytes {m : UInt8} (h : m.toNat ≤ 4) :
    (SetRequest.speed m).marshalBinary = ([m], none) := by
  simp only [SetRequest.marshalBinary]
  rw [if_neg]
  rw [gt_iff_lt, u8_lt]
  have : (4 : UInt8).toNat = 4 := rfl
  omega

theorem comfort_bytes {v : UInt8} : (v.toNat ≤ 107 →
    (SetRequest.comfort (v.toNat : Int)).marshalBinary = ([UInt8.ofNat ((v.toNat + 20) * 2)], none)) ∧
    (107 < v.toNat → (SetRequest.comfort (v.toNat : Int)).marshalBinary = ([], some .tooHigh)) := by
  constructor
  · intro h
    simp only [SetRequest.marshalBinary, temperatureMarshal]
    rw [if_neg (by omega), if_neg (by omega)]
    simp only [Prod.mk.injEq, and_true, List.cons.injEq]
    congr 1
  · intro h
    simp only [SetRequest.marshalBinary, temperatureMarshal]
    rw [if_pos (by omega)]

/-- **C85** `SetComfortTemp` in every interleaving. Either it has exchanged nothing with the unit: then
nothing is reported as modified, or the argument is refused, or it is above 107. Or the command was
sent: then the request fails if and only if that exchange failed, with its error and at once; else
it reports a modification. -/
theorem C85_comfort {S : Setup σ} {w : World σ} {s : Sys σ} (h : Reachable S (Sys.initial w) s)
    {i : Nat} {v : UInt32} {x : Rpc ComfortModified}
    (ha : Answered s i (.setComfort v) (.comfort x)) :
    let io := dialogue (actsOf (.client i) s.sh.trace)
    (io = [] ∧ ((∃ m, x = .ok m ∧ m.modified = false) ∨ (∃ a, x = .err (.invalidArgument a)) ∨
      107 < v.toNat ∧ x = .err (.internal (.lib .tooHigh)))) ∨
    ∃ (b : UInt8) (q : Packet) (e : Option Err) (rest : List IoEv), b.toNat = (v.toNat + 20) * 2 ∧
      Begins io 0xD3 [b] false q e rest ∧
      match e with
      | some e => x = .err (.internal (.lib e)) ∧ rest = []
      | none => ∃ m, x = .ok m ∧ m.modified = true := by
  have hx := comfort_answered h ha
  generalize actsOf (.client i) s.sh.trace = acts at hx
  simp only
  have e8 : ¬ v > 255 → v.toUInt8.toNat = v.toNat := by
    intro hv
    have c255 : (255 : UInt32).toNat = 255 := rfl
    have : v.toNat ≤ 255 := by
      rw [gt_iff_lt, UInt32.lt_iff_toNat_lt, c255] at hv; omega
    simp; omega
  have hset : ∀ {sa : List Act} {e : Option Err}, ¬ v > 255 →
      SetActs (.comfort (v.toUInt8.toNat : Int)) sa e →
      (107 < v.toNat ∧ sa = [] ∧ e = some .tooHigh) ∨ ∃ (b : UInt8) (q : Packet),
        b.toNat = (v.toNat + 20) * 2 ∧ Transaction 0xD3 [b] false (dialogue sa) (q, e) := by
    intro sa e hv hs
    by_cases hc : v.toNat ≤ 107
    · obtain ⟨q, hq⟩ := dialogue_set (comfort_bytes.1 (by rw [e8 hv]; exact hc)) hs
      refine .inr ⟨_, q, ?_, hq⟩
      rw [e8 hv]; simp; omega
    · rcases hs with ⟨bin', q, h1, h2⟩ | ⟨rfl, bin', e', h1, h2⟩
      · rw [comfort_bytes.2 (by rw [e8 hv]; omega)] at h1; cases h1
      · rw [comfort_bytes.2 (by rw [e8 hv]; omega)] at h1
        cases h1
        exact .inl ⟨by omega, rfl, h2⟩
  cases hx with
  | rejected t c hv => exact .inl ⟨rfl, .inr (.inl ⟨_, rfl⟩)⟩
  | same t c stop hv he => exact .inl ⟨rfl, .inl ⟨_, rfl, rfl⟩⟩
  | setFailed t c sa e hv he hs =>
    rcases hset hv hs with ⟨h1, rfl, h2⟩ | ⟨b, q, h1, h2⟩
    · cases h2
      exact .inl ⟨rfl, .inr (.inr ⟨h1, rfl⟩)⟩
    · refine .inr ⟨b, q, some e, [], h1, ⟨_, h2, ?_⟩, rfl, rfl⟩
      have : dialogue (Act.now t :: .load .temps c :: .lock .temp :: (sa ++ [.unlock .temp])) =
        dialogue (sa ++ [.unlock .temp]) := rfl
      rw [this, dialogue_append]; rfl
  | set t c sa u stop hv he hs hu =>
    rcases hset hv hs with ⟨-, -, h2⟩ | ⟨b, q, h1, h2⟩
    · cases h2
    · refine .inr ⟨b, q, none, dialogue (u ++ [.now stop, .unlock .temp]), h1, ⟨_, h2, ?_⟩, _, rfl, rfl⟩
      have : dialogue (Act.now t :: .load .temps c :: .lock .temp ::
        (sa ++ u ++ [.now stop, .unlock .temp])) = dialogue (sa ++ u ++ [.now stop, .unlock .temp]) := rfl
      rw [this, List.append_assoc, dialogue_append]

theorem not_seen_append {a b : UInt8} {u v : List Act} (hu : ∀ f, Act.load .fans f ∉ u)
    (h : SeenAt a b (u ++ v)) : SeenAt a b v := by
  obtain ⟨pre, post, f, g, he, h1, h2⟩ := h
  induction u generalizing pre with
  | nil => exact ⟨pre, post, f, g, he, h1, h2⟩
  | cons x u ih =>
    cases pre with
    | nil => simp only [List.cons_append, List.nil_append, List.cons.injEq] at he
             exact absurd (by rw [he.1]; simp) (hu f)
    | cons y pre =>
      simp only [List.cons_append, List.cons.injEq] at he
      exact ih (fun f hf => hu f (List.mem_cons_of_mem _ hf)) pre he.2

theorem not_seen_none {a b : UInt8} {u : List Act} (hu : ∀ f, Act.load .fans f ∉ u) :
    ¬ SeenAt a b u := by
  rintro ⟨pre, post, f, g, rfl, -⟩
  exact hu f (by simp)

theorem no_load_forced {id : CacheId} {acts : List Act} (h : ForcedActs id acts) (j : CacheId)
    (f : Entry (CVal j)) : Act.load j f ∉ acts := by
  obtain ⟨t, ra, ⟨qa, q, e, ⟨evs, ht, rfl⟩, rfl⟩, rfl⟩ := h
  cases outcome id q e <;> cases ht <;> simp [toAct]

theorem seen_poll {a b : UInt8} {n : Nat} {acts : List Act} {r : Option SrvErr}
    (h : PollActs a b n acts r) : (r = none ↔ SeenAt a b acts) ∧ (r ≠ none → r = some .pollFailed) := by
  induction h with
  | zero =>
    refine ⟨⟨fun h => absurd h (by simp), ?_⟩, fun _ => rfl⟩
    rintro ⟨pre, post, f, g, h, -⟩
    simp at h
  | hit n u f g hu h1 h2 =>
    exact ⟨⟨fun _ => ⟨u, [], f, g, rfl, h1, h2⟩, fun _ => rfl⟩, fun h => absurd rfl h⟩
  | missIn n u rest res f hu hf hp ih =>
    refine ⟨⟨fun h => ?_, fun h => ?_⟩, ih.2⟩
    · obtain ⟨pre, post, f', g', rfl, h'⟩ := ih.1.1 h
      exact ⟨u ++ .load .fans f :: .sleep 500000000 :: pre, post, f', g', by simp, h'⟩
    · have := not_seen_append (fun f => no_load_forced hu .fans f) h
      refine ih.1.2 ?_
      obtain ⟨pre, post, f', g', he, h1, h2⟩ := this
      match pre with
      | [] => simp at he
      | [x] => simp at he
      | x :: y :: pre =>
        simp only [List.cons_append, List.cons.injEq] at he
        exact ⟨pre, post, f', g', he.2.2, h1, h2⟩
  | missOut n u rest res f g hu hf hg hp ih =>
    refine ⟨⟨fun h => ?_, fun h => ?_⟩, ih.2⟩
    · obtain ⟨pre, post, f', g', rfl, h'⟩ := ih.1.1 h
      exact ⟨u ++ .load .fans f :: .load .fans g :: .sleep 500000000 :: pre, post, f', g', by simp, h'⟩
    · have := not_seen_append (fun f => no_load_forced hu .fans f) h
      refine ih.1.2 ?_
      obtain ⟨pre, post, f', g', he, h1, h2⟩ := this
      match pre with
      | [] =>
        simp only [List.nil_append, List.cons.injEq] at he
        have hgg := he.2.1
        cases hgg
        exact absurd h2 hg
      | [x] => simp at he
      | [x, y] => simp at he
      | x :: y :: z :: pre =>
        simp only [List.cons_append, List.cons.injEq] at he
        exact ⟨pre, post, f', g', he.2.2.2, h1, h2⟩

theorem no_load_set {inp : SetRequest} {acts : List Act} {e : Option Err} (h : SetActs inp acts e)
    (j : CacheId) (f : Entry (CVal j)) : Act.load j f ∉ acts := by
  rcases h with ⟨bin, q, -, ⟨evs, ht, rfl⟩⟩ | ⟨rfl, -⟩
  · cases ht <;> simp [toAct]
  · simp

/-- **C85** `SetFanSpeed` in every interleaving. Either it has exchanged nothing with the unit: then
nothing is reported as modified or the argument is refused. Or the command was sent. If that exchange
failed the request fails with its error, at once. Else, with `p` the profiles it saw next, it reports
a modification if it saw the fans at the percentages of the speed commanded, and that polling failed
if it did not. -/
theorem C85_speed {S : Setup σ} {w : World σ} {s : Sys σ} (h : Reachable S (Sys.initial w) s)
    {i : Nat} {abs : UInt32} {rel : Bool} {x : Rpc SpeedModified}
    (ha : Answered s i (.setSpeed abs rel) (.speed x)) :
    let acts := actsOf (.client i) s.sh.trace
    (dialogue acts = [] ∧ ((∃ m, x = .ok m ∧ m.modified = false) ∨
      ∃ a, x = .err (.invalidArgument a))) ∨
    ∃ (b : UInt8) (q : Packet) (e : Option Err) (rest : List IoEv), 1 ≤ b.toNat ∧ b.toNat ≤ 4 ∧
      Begins (dialogue acts) 0x99 [b] false q e rest ∧
      match e with
      | some e => x = .err (.internal (.lib e)) ∧ rest = []
      | none => ∃ pre p post, acts = pre ++ .load .profiles p :: post ∧ dialogue post = rest ∧
          let seen := SeenAt (profileOf p.val b.toNat).1 (profileOf p.val b.toNat).2 post
          (seen → ∃ m, x = .ok m ∧ m.modified = true ∧ m.targetSpeed = b.toUInt32) ∧
          (¬ seen → x = .err (.internal .pollFailed)) := by
  have hx := speed_answered h ha
  generalize actsOf (.client i) s.sh.trace = acts at hx
  simp only
  cases hx with
  | rejected t c b e hm =>
    obtain ⟨a, rfl⟩ := modify_err hm
    exact .inl ⟨rfl, .inr ⟨a, rfl⟩⟩
  | same t c stop hm => exact .inl ⟨rfl, .inl ⟨_, rfl, rfl⟩⟩
  | setFailed t c m sa e hm hne hs =>
    obtain ⟨m1, m4⟩ := modify_ok hm
    obtain ⟨q, hq⟩ := dialogue_set (speed_bytes m4) hs
    refine .inr ⟨m, q, some e, [], m1, m4, ⟨_, hq, ?_⟩, rfl, rfl⟩
    have : dialogue (Act.now t :: .lock .fan :: .load .profiles c :: (sa ++ [.unlock .fan])) =
      dialogue (sa ++ [.unlock .fan]) := rfl
    rw [this, dialogue_append]; rfl
  | noTarget t c m sa p e hm hne hs hl =>
    obtain ⟨m1, m4⟩ := modify_ok hm
    rw [lookup_ok p.val m1 m4] at hl
    cases hl
  | pollFailed t c m sa p a b pa e hm hne hs hl hpo =>
    obtain ⟨m1, m4⟩ := modify_ok hm
    obtain ⟨q, hq⟩ := dialogue_set (speed_bytes m4) hs
    rw [lookup_ok p.val m1 m4, Prod.mk.injEq] at hl
    obtain ⟨hs1, hs2⟩ := seen_poll hpo
    refine .inr ⟨m, q, none, dialogue (.runlock (.cache .profiles) :: (pa ++ [.unlock .fan])), m1, m4,
      ⟨_, hq, ?_⟩, .now t :: .lock .fan :: .load .profiles c :: (sa ++ [.rlock (.cache .profiles)]), p,
      .runlock (.cache .profiles) :: (pa ++ [.unlock .fan]), by simp, rfl, ?_, ?_⟩
    · have : dialogue (Act.now t :: .lock .fan :: .load .profiles c :: (sa ++
        .rlock (.cache .profiles) :: .load .profiles p :: .runlock (.cache .profiles) ::
          (pa ++ [.unlock .fan]))) = dialogue (sa ++ (.rlock (.cache .profiles) :: .load .profiles p ::
            .runlock (.cache .profiles) :: (pa ++ [.unlock .fan]))) := rfl
      rw [this, dialogue_append]; rfl
    · rintro ⟨pre, post, f, g, he, h1, h2⟩
      exfalso
      rw [hl.1] at h1 h2
      have hns : ¬ SeenAt a b pa := fun h => by have := hs1.2 h; cases this
      refine hns ?_
      cases pre with
      | nil => simp at he
      | cons y pre =>
        simp only [List.cons_append, List.cons.injEq] at he
        replace he := he.2
        rcases List.eq_nil_or_concat post with rfl | ⟨post', z, rfl⟩
        · have := congrArg List.getLast? he
          simp [List.getLast?_append] at this
        · rw [List.concat_eq_append, show pre ++ Act.load .fans f :: .load .fans g :: (post' ++ [z]) =
            (pre ++ .load .fans f :: .load .fans g :: post') ++ [z] by simp] at he
          obtain ⟨he1, -⟩ := List.append_inj' he rfl
          exact ⟨pre, post', f, g, he1, h1, h2⟩
    · intro _
      have := hs2 (by simp)
      cases this; rfl
  | set t c m sa p a b pa u stop hm hne hs hl hpo hu =>
    obtain ⟨m1, m4⟩ := modify_ok hm
    obtain ⟨q, hq⟩ := dialogue_set (speed_bytes m4) hs
    rw [lookup_ok p.val m1 m4, Prod.mk.injEq] at hl
    obtain ⟨hs1, hs2⟩ := seen_poll hpo
    refine .inr ⟨m, q, none, dialogue (.runlock (.cache .profiles) ::
        (pa ++ u ++ [.now stop, .unlock .fan])), m1, m4,
      ⟨_, hq, ?_⟩, .now t :: .lock .fan :: .load .profiles c :: (sa ++ [.rlock (.cache .profiles)]), p,
      .runlock (.cache .profiles) :: (pa ++ u ++ [.now stop, .unlock .fan]), by simp, rfl,
      fun _ => ⟨_, rfl, rfl, rfl⟩, ?_⟩
    · have : dialogue (Act.now t :: .lock .fan :: .load .profiles c :: (sa ++
        .rlock (.cache .profiles) :: .load .profiles p :: .runlock (.cache .profiles) ::
          (pa ++ u ++ [.now stop, .unlock .fan]))) = dialogue (sa ++ (.rlock (.cache .profiles) ::
            .load .profiles p :: .runlock (.cache .profiles) ::
              (pa ++ u ++ [.now stop, .unlock .fan]))) := rfl
      rw [this, dialogue_append]; rfl
    · intro hn
      exfalso
      refine hn ?_
      obtain ⟨pre, post, f, g, rfl, h1, h2⟩ := hs1.1 rfl
      rw [hl.1]
      exact ⟨.runlock (.cache .profiles) :: pre, post ++ u ++ [.now stop, .unlock .fan], f, g,
        by simp, h1, h2⟩

theorem begins_append {io rest more : List IoEv} {cmd : UInt8} {data : List UInt8} {x : Bool}
    {q : Packet} {e : Option Err} (h : Begins io cmd data x q e rest) :
    Begins (io ++ more) cmd data x q e (rest ++ more) := by
  obtain ⟨evs, h1, rfl⟩ := h
  exact ⟨evs, h1, by simp⟩

theorem begins_all {io : List IoEv} {cmd : UInt8} {data : List UInt8} {x : Bool}
    {q : Packet} {e : Option Err} (h : Transaction cmd data x io (q, e)) :
    Begins io cmd data x q e [] := ⟨io, h, by simp⟩

/-- The library's `SetFanProfile`, with arguments in range. -/
theorem profile_acts {mode speed : UInt8} (hm : mode.toNat ≤ 3) (hs : speed.toNat ≤ 100)
    {acts : List Act} {e : Option Err} (h : ProfileActs mode speed acts e) :
    ∃ (q : Packet) (e₁ : Option Err) (rest : List IoEv),
      Begins (dialogue acts) 0xCD [] true q e₁ rest ∧
      match e₁, decode .profiles q.data with
      | some e₁, _ => e = some e₁ ∧ rest = []
      | none, none => e ≠ none ∧ rest = []
      | none, some (v : FanProfiles) => ∃ q₂, Transaction 0xCF
          (replaceMode mode.toNat speed (percentages v)) false rest (q₂, e) := by
  have c3 : (3 : UInt8).toNat = 3 := rfl
  have c100 : (100 : UInt8).toNat = 100 := rfl
  cases h with
  | badMode hb => rw [gt_iff_lt, u8_lt] at hb; omega
  | badSpeed _ hb => rw [gt_iff_lt, u8_lt] at hb; omega
  | getFailed fa v e _ _ hf =>
    obtain ⟨q, e₁, hq, h1, -, h3⟩ := hf
    have hd : dialogue (.lock .am :: (fa ++ [.unlock .am])) = dialogue fa ++ [] := by
      have : dialogue (Act.lock .am :: (fa ++ [.unlock .am])) = dialogue (fa ++ [.unlock .am]) := rfl
      rw [this, dialogue_append]; rfl
    refine ⟨q, e₁, [], ⟨_, dialogue_query hq, hd⟩, ?_⟩
    cases e₁ with
    | some e₁ => exact ⟨h3 e₁ rfl, rfl⟩
    | none =>
      cases hdec : decode .profiles q.data with
      | none => simp
      | some v => rw [hdec] at h1; simp at h1
  | set fa sa v e _ _ hf hset =>
    obtain ⟨q, e₁, hq, h1, h2, -⟩ := hf
    have hd : dialogue (.lock .am :: (fa ++ sa ++ [.unlock .am])) = dialogue fa ++ dialogue sa := by
      have : dialogue (Act.lock .am :: (fa ++ sa ++ [.unlock .am])) =
        dialogue (fa ++ sa ++ [.unlock .am]) := rfl
      rw [this, dialogue_append, dialogue_append]; simp [dialogue]
    obtain ⟨he, -⟩ := h1.1 rfl
    have hdec := h2 rfl
    refine ⟨q, e₁, dialogue sa, ⟨_, dialogue_query hq, hd⟩, ?_⟩
    rw [he, hdec]
    exact dialogue_set (patch_bytes mode speed hm v) hset

/-- **C85** `SetFanProfile` in every interleaving. Either it has exchanged nothing with the unit: then
nothing is reported as modified or an argument is refused. Or it has asked for the profiles. If that
failed, the request fails with the error of the exchange, or because the reply made no sense, and
nothing follows. Else it has sent the profiles that came, with the percentage changed. The request
fails if and only if that exchange failed, with its error; else it reports a modification. -/
theorem C85_profile {S : Setup σ} {w : World σ} {s : Sys σ} (h : Reachable S (Sys.initial w) s)
    {i : Nat} {m t : UInt32} {x : Rpc SpeedModified}
    (ha : Answered s i (.setProfile m t) (.speed x)) :
    let io := dialogue (actsOf (.client i) s.sh.trace)
    (io = [] ∧ ((∃ v, x = .ok v ∧ v.modified = false) ∨ ∃ a, x = .err (.invalidArgument a))) ∨
    ∃ (q : Packet) (e : Option Err) (rest : List IoEv), Begins io 0xCD [] true q e rest ∧
      match e, decode .profiles q.data with
      | some e, _ => x = .err (.internal (.lib e)) ∧ rest = []
      | none, none => (∃ e, x = .err (.internal (.lib e))) ∧ rest = []
      | none, some (v : FanProfiles) => ∃ q₂ e₂ rest₂, Begins rest 0xCF
            (replaceMode (m.toNat % 256 - 1) (UInt8.ofNat t.toNat) (percentages v)) false q₂ e₂ rest₂ ∧
          match e₂ with
          | some e => x = .err (.internal (.lib e)) ∧ rest₂ = []
          | none => ∃ v, x = .ok v ∧ v.modified = true := by
  have hx := profile_answered h ha
  generalize actsOf (.client i) s.sh.trace = acts at hx
  simp only
  have em : m.toUInt8.toNat = m.toNat % 256 := by simp
  have et : t.toUInt8.toNat = t.toNat % 256 := by simp
  have et' : t.toUInt8 = UInt8.ofNat t.toNat := by rw [u8_ext, et]; simp
  have c1 : (1 : UInt8).toNat = 1 := rfl
  have c4 : (4 : UInt8).toNat = 4 := rfl
  have c15 : (15 : UInt8).toNat = 15 := rfl
  have c100 : (100 : UInt8).toNat = 100 := rfl
  have key : ∀ {sa : List Act} {e : Option Err}, ¬ (m.toUInt8 < 1 ∨ m.toUInt8 > 4) →
      ¬ (t.toUInt8 < 15 ∨ t.toUInt8 > 100) → ProfileActs (m.toUInt8 - 1) t.toUInt8 sa e →
      ∃ (q : Packet) (e₁ : Option Err) (rest : List IoEv),
        Begins (dialogue sa) 0xCD [] true q e₁ rest ∧
        match e₁, decode .profiles q.data with
        | some e₁, _ => e = some e₁ ∧ rest = []
        | none, none => e ≠ none ∧ rest = []
        | none, some (v : FanProfiles) => ∃ q₂, Transaction 0xCF
            (replaceMode (m.toNat % 256 - 1) (UInt8.ofNat t.toNat) (percentages v)) false rest
            (q₂, e) := by
    intro sa e k1 k2 hp
    rw [gt_iff_lt, u8_lt, u8_lt] at k1 k2
    have em1 : (m.toUInt8 - 1).toNat = m.toNat % 256 - 1 := by
      have : (1 : UInt8) ≤ m.toUInt8 := by rw [UInt8.le_iff_toNat_le]; omega
      rw [UInt8.toNat_sub_of_le _ _ this, em]; rfl
    have := profile_acts (by rw [em1]; omega) (by omega) hp
    rw [em1, et'] at this
    exact this
  cases hx with
  | badMode t' h1 => exact .inl ⟨rfl, .inr ⟨_, rfl⟩⟩
  | badSpeed t' h1 h2 => exact .inl ⟨rfl, .inr ⟨_, rfl⟩⟩
  | same t' c stop h1 h2 h3 => exact .inl ⟨rfl, .inl ⟨_, rfl, rfl⟩⟩
  | setFailed t' c sa e h1 h2 h3 h4 =>
    obtain ⟨q, e₁, rest, hb, hc⟩ := key h1 h2 h4
    have hd : dialogue (.now t' :: .lock .fan :: .load .profiles c :: (sa ++ [.unlock .fan])) =
        dialogue sa := by
      have : dialogue (Act.now t' :: .lock .fan :: .load .profiles c :: (sa ++ [.unlock .fan])) =
        dialogue (sa ++ [.unlock .fan]) := rfl
      rw [this, dialogue_append]; simp [dialogue]
    rw [hd]
    refine .inr ⟨q, e₁, rest, hb, ?_⟩
    cases e₁ with
    | some e₁ => obtain ⟨h5, h6⟩ := hc; cases h5; exact ⟨rfl, h6⟩
    | none =>
      cases hdec : decode .profiles q.data with
      | none => rw [hdec] at hc; exact ⟨⟨e, rfl⟩, hc.2⟩
      | some v =>
        rw [hdec] at hc
        obtain ⟨q₂, h6⟩ := hc
        exact ⟨q₂, some e, [], begins_all h6, rfl, rfl⟩
  | set t' c sa u stop h1 h2 h3 h4 h5 =>
    obtain ⟨q, e₁, rest, hb, hc⟩ := key h1 h2 h4
    have hd : dialogue (.now t' :: .lock .fan :: .load .profiles c ::
        (sa ++ u ++ [.now stop, .unlock .fan])) = dialogue sa ++ dialogue u := by
      have : dialogue (Act.now t' :: .lock .fan :: .load .profiles c ::
        (sa ++ u ++ [.now stop, .unlock .fan])) = dialogue (sa ++ u ++ [.now stop, .unlock .fan]) := rfl
      rw [this, dialogue_append, dialogue_append]; simp [dialogue]
    rw [hd]
    refine .inr ⟨q, e₁, rest ++ dialogue u, begins_append hb, ?_⟩
    cases e₁ with
    | some e₁ => obtain ⟨h6, -⟩ := hc; cases h6
    | none =>
      cases hdec : decode .profiles q.data with
      | none => rw [hdec] at hc; exact absurd rfl hc.1
      | some v =>
        rw [hdec] at hc
        obtain ⟨q₂, h6⟩ := hc
        exact ⟨q₂, none, dialogue u, ⟨_, h6, rfl⟩, _, rfl, rfl⟩

/-- **C85** The set calls of the library, in every interleaving, for arguments in range: they return
exactly what the exchange of the command gave. -/
theorem C85_library {S : Setup σ} {w : World σ} {s : Sys σ} (h : Reachable S (Sys.initial w) s)
    {i : Nat} {c : Call} {r : Resp} (ha : Answered s i c r) :
    let io := dialogue (actsOf (.client i) s.sh.trace)
    (∀ v : UInt8, c = .libSetSpeed v → v.toNat ≤ 4 →
      ∃ q e, Transaction 0x99 [v] false io (q, e) ∧ r = .err e) ∧
    (∀ v : UInt8, c = .libSetComfort v → v.toNat ≤ 107 →
      ∃ (b : UInt8) (q : Packet) (e : Option Err), b.toNat = (v.toNat + 20) * 2 ∧
        Transaction 0xD3 [b] false io (q, e) ∧ r = .err e) ∧
    (∀ v : FanProfiles, c = .libSetProfiles v →
      ∃ q e, Transaction 0xCF (percentages v) false io (q, e) ∧ r = .err e) ∧
    (∀ m x : UInt8, c = .libSetProfile m x → m.toNat ≤ 3 → x.toNat ≤ 100 →
      ∃ (q : Packet) (e : Option Err) (rest : List IoEv), Begins io 0xCD [] true q e rest ∧
        match e, decode .profiles q.data with
        | some e, _ => r = .err (some e) ∧ rest = []
        | none, none => (∃ e, r = .err (some e)) ∧ rest = []
        | none, some (v : FanProfiles) => ∃ q₂ e₂,
            Transaction 0xCF (replaceMode m.toNat x (percentages v)) false rest (q₂, e₂) ∧
            r = .err e₂) := by
  have set : ∀ {inp : SetRequest} {bin : List UInt8}, inp.marshalBinary = (bin, none) →
      c.prog S.cv = (setQueryP inp).map .err →
      ∃ q e, Transaction inp.requestType bin false (dialogue (actsOf (.client i) s.sh.trace)) (q, e) ∧
        r = .err e := by
    intro inp bin hb hc
    have hp : (c.prog S.cv).Post fun acts r => ∃ e, r = .err e ∧ SetActs inp acts e := by
      rw [hc]
      exact ((post_set inp).mono fun _ e he => ⟨e, rfl, he⟩).map
    obtain ⟨e, rfl, he⟩ := hp.answered h ha
    obtain ⟨q, hq⟩ := dialogue_set hb he
    exact ⟨q, e, hq, rfl⟩
  refine ⟨?_, ?_, ?_, ?_⟩
  · rintro v rfl hv
    exact set (speed_bytes hv) rfl
  · rintro v rfl hv
    obtain ⟨q, e, h1, h2⟩ := set (comfort_bytes.1 hv) rfl
    exact ⟨_, q, e, by simp; omega, h1, h2⟩
  · rintro v rfl
    exact set (inp := .fanProfiles v) rfl rfl
  · rintro m x rfl hm hx
    have hp : ((Call.libSetProfile m x).prog S.cv).Post
        fun acts r => ∃ e, r = .err e ∧ ProfileActs m x acts e :=
      ((post_setFanProfileP m x).mono fun _ e he => ⟨e, rfl, he⟩).map
    obtain ⟨e, rfl, he⟩ := hp.answered h ha
    obtain ⟨q, e₁, rest, hb, hc⟩ := profile_acts hm hx he
    refine ⟨q, e₁, rest, hb, ?_⟩
    cases e₁ with
    | some e₁ => exact ⟨by rw [hc.1], hc.2⟩
    | none =>
      cases hdec : decode .profiles q.data with
      | none =>
        rw [hdec] at hc
        cases e with
        | none => exact absurd rfl hc.1
        | some e => exact ⟨⟨e, rfl⟩, hc.2⟩
      | some v =>
        rw [hdec] at hc
        obtain ⟨q₂, h6⟩ := hc
        exact ⟨q₂, e, h6, rfl⟩

theorem well_begins {io rest : List IoEv} {cmd : UInt8} {data : List UInt8} {x : Bool} {q : Packet}
    {e : Option Err} (hw : AllWell io) (h : Begins io cmd data x q e rest)
    (hx : x = true → ∃ id, cmd = requestCode id ∧ data = []) :
    e = none ∧ AllWell rest ∧ ∀ id, x = true → cmd = requestCode id → data = [] →
      (decode id q.data).isSome := by
  obtain ⟨evs, ht, rfl⟩ := h
  cases ht with
  | writeFailed n e => exact absurd hw.1 (by simp)
  | readFailed n q e => exact absurd hw.2.2.2.1 (by simp)
  | wrongReply n q hx1 hx2 =>
    obtain ⟨id, rfl, rfl⟩ := hx hx1
    subst hx1
    exact absurd (hw.2.2.1 id rfl).1 hx2
  | ackFailed n q m e hc => exact absurd hw.2.2.2.2.1 (by simp)
  | ackShort n q m hc hm => exact absurd (hw.2.2.2.2.2.1 rfl) hm
  | complete n q hc =>
    refine ⟨rfl, ?_, ?_⟩
    · exact hw.2.2.2.2.2.2.2
    · rintro id rfl rfl rfl
      exact (hw.2.2.1 id rfl).2

/-- **C85** If everything goes well on the line for a request, it does not fail, unless its arguments
are refused or out of range, or the fans do not reach their percentages. -/
theorem C85_well {S : Setup σ} {w : World σ} {s : Sys σ} (h : Reachable S (Sys.initial w) s)
    {i : Nat} {c : Call} {r : Resp} (ha : Answered s i c r)
    (hw : AllWell (dialogue (actsOf (.client i) s.sh.trace))) {e : SrvErr}
    (he : r.error? = some (.internal e)) :
    (e = .lib .tooHigh ∧ ∃ v, c = .setComfort v ∧ 107 < v.toNat) ∨
    (e = .pollFailed ∧ ∃ abs rel, c = .setSpeed abs rel) := by
  have none : (c.prog S.cv).Post (fun _ r => r.error? = none) → False := by
    intro hp
    rw [hp.answered h ha] at he
    cases he
  have lib : ∀ {α : Type} (p : Prog α) (k : α → Resp), (∀ v, (k v).error? = Option.none) →
      (p.map k).Post fun _ r => r.error? = Option.none := fun p k hk =>
    ((post_true p).mono (fun _ v _ => hk v)).map
  cases c with
  | setSpeed abs rel =>
    obtain ⟨x, rfl, -⟩ := Prog.Post.answered (c := .setSpeed abs rel)
      (P := fun acts r => ∃ x, r = .speed x ∧ SpeedActs abs rel acts x)
      ((post_setFanSpeed abs rel).mono (fun _ x hx => ⟨x, rfl, hx⟩)).map h ha
    rcases C85_speed h ha with ⟨-, ⟨m, rfl, -⟩ | ⟨a, rfl⟩⟩ | ⟨b, q, e₁, rest, -, -, hb, hc⟩
    · cases he
    · cases he
    · obtain ⟨rfl, -, -⟩ := well_begins hw hb (by simp)
      obtain ⟨pre, p, post, -, -, h1, h2⟩ := hc
      by_cases hs : SeenAt (profileOf p.val b.toNat).1 (profileOf p.val b.toNat).2 post
      · obtain ⟨m, rfl, -⟩ := h1 hs
        cases he
      · rw [h2 hs] at he
        cases he
        exact .inr ⟨rfl, abs, rel, rfl⟩
  | setProfile m t =>
    obtain ⟨x, rfl, -⟩ := Prog.Post.answered (c := .setProfile m t)
      (P := fun acts r => ∃ x, r = .speed x ∧ ProfileRpcActs m t acts x)
      ((post_setFanProfileRpc m t).mono (fun _ x hx => ⟨x, rfl, hx⟩)).map h ha
    rcases C85_profile h ha with ⟨-, ⟨m, rfl, -⟩ | ⟨a, rfl⟩⟩ | ⟨q, e₁, rest, hb, hc⟩
    · cases he
    · cases he
    · obtain ⟨rfl, hw', hd⟩ := well_begins hw hb (fun _ => ⟨.profiles, rfl, rfl⟩)
      have hd := hd .profiles rfl rfl rfl
      cases hdec : decode .profiles q.data with
      | none => rw [hdec] at hd; cases hd
      | some v =>
        rw [hdec] at hc
        obtain ⟨q₂, e₂, rest₂, hb₂, hc₂⟩ := hc
        obtain ⟨rfl, -, -⟩ := well_begins hw' hb₂ (by simp)
        obtain ⟨v, rfl, -⟩ := hc₂
        cases he
  | setComfort v =>
    obtain ⟨x, rfl, -⟩ := Prog.Post.answered (c := .setComfort v)
      (P := fun acts r => ∃ x, r = .comfort x ∧ ComfortActs S.cv v acts x)
      ((post_setComfortTemp S.cv v).mono (fun _ x hx => ⟨x, rfl, hx⟩)).map h ha
    rcases C85_comfort h ha with ⟨-, ⟨m, rfl, -⟩ | ⟨a, rfl⟩ | ⟨h1, rfl⟩⟩ | ⟨b, q, e₁, rest, -, hb, hc⟩
    · cases he
    · cases he
    · cases he
      exact .inl ⟨rfl, v, rfl, h1⟩
    · obtain ⟨rfl, -, -⟩ := well_begins hw hb (by simp)
      obtain ⟨m, rfl, -⟩ := hc
      cases he
  | flush t => exact (none fun _ _ _ => rfl).elim
  | getBoot => exact (none (post_get_ok _ fun _ => rfl)).elim
  | getBypass => exact (none (post_get_ok _ fun _ => rfl)).elim
  | getErrors => exact (none (post_get_ok _ fun _ => rfl)).elim
  | getFans => exact (none (post_get_ok _ fun _ => rfl)).elim
  | getProfiles => exact (none (post_get_ok _ fun _ => rfl)).elim
  | getTemps => exact (none (post_get_ok _ fun _ => rfl)).elim
  | libQuery p => exact (none (lib _ _ fun _ => rfl)).elim
  | libGet id => exact (none (lib _ _ fun _ => rfl)).elim
  | libSetComfort v => exact (none (lib _ _ fun _ => rfl)).elim
  | libSetSpeed v => exact (none (lib _ _ fun _ => rfl)).elim
  | libSetProfile m x => exact (none (lib _ _ fun _ => rfl)).elim
  | libSetProfiles v => exact (none (lib _ _ fun _ => rfl)).elim

/-- **C85** Asking for a value and flushing never fail. -/
theorem C85_reads {S : Setup σ} {w : World σ} {s : Sys σ} (h : Reachable S (Sys.initial w) s)
    {i : Nat} {c : Call} {r : Resp} (ha : Answered s i c r)
    (hc : c ∈ [.getBoot, .getBypass, .getErrors, .getFans, .getProfiles, .getTemps] ∨
      ∃ t, c = .flush t) : r.error? = none := by
  have ok : (c.prog S.cv).Post (fun _ r => r.error? = none) → r.error? = none :=
    fun hp => hp.answered h ha
  rcases hc with hc | ⟨t, rfl⟩
  · simp only [List.mem_cons, List.not_mem_nil, or_false] at hc
    rcases hc with rfl | rfl | rfl | rfl | rfl | rfl <;>
      exact ok (post_get_ok _ fun _ => rfl)
  · exact ok fun _ _ _ => rfl

/-! ## Examples -/

/-- A unit that does not answer: the speed command, the comfort command and the question for the
profiles have been written, and the timeout of that exchange is the error of the request; nothing
follows. The same for the calls of the library. -/
example :
    (Sys.execs deaf ([.arrive (.setSpeed 2 false), .arrive (.setComfort 25), .arrive (.setProfile 1 40),
        .arrive (.libSetSpeed 3)] ++
        steps 8 (.client 0) ++ steps 8 (.client 1) ++ steps 10 (.client 2) ++ steps 4 (.client 3))
      (Sys.initial { line := () })).any (fun (s : Sys Unit) =>
        (match s.clients.map Client.prog with
          | [.ret (.speed (.err (.internal a))), .ret (.comfort (.err (.internal b))),
              .ret (.speed (.err (.internal c))), .ret (.err (some d))] =>
            a == .lib .timeout && b == .lib .timeout && c == .lib .timeout && d == .timeout
          | _ => false) &&
        dialogue (actsOf (.client 0) s.sh.trace) ==
          [.wrote (frame 0x99 [2]) (9, none), .got false ({}, some .timeout)] &&
        dialogue (actsOf (.client 1) s.sh.trace) ==
          [.wrote (frame 0xD3 [90]) (9, none), .got false ({}, some .timeout)] &&
        dialogue (actsOf (.client 2) s.sh.trace) ==
          [.wrote (frame 0xCD []) (8, none), .got true ({}, some .timeout)] &&
        dialogue (actsOf (.client 3) s.sh.trace) ==
          [.wrote (frame 0x99 [3]) (9, none), .got false ({}, some .timeout)]) = true := by
  set_option maxRecDepth 8000 in decide

/-- The sample unit: the profiles that came are written back with the percentage changed, and read
again. -/
example :
    (Sys.execs demo ([.arrive (.setProfile 1 40)] ++ steps 27 (.client 0))
      (Sys.initial (stepStart 1))).any (fun (s : Sys UInt8) =>
        (match s.clients.map Client.prog with
          | [.ret (.speed (.ok m))] => m.modified
          | _ => false) &&
        (match dialogue (actsOf (.client 0) s.sh.trace) with
          | .wrote a _ :: .got true (q, none) :: .wrote b _ :: .wrote c _ :: .got false (_, none) ::
              .wrote d _ :: .wrote e _ :: .got true (_, none) :: [.wrote f _] =>
            a == frame 0xCD [] && b == ack && d == ack && e == frame 0xCD [] && f == ack &&
            ((decode .profiles q.data).any fun v : FanProfiles =>
              c == frame 0xCF (replaceMode 0 40 (percentages v)))
          | _ => false)) = true := by
  set_option maxRecDepth 8000 in decide

/-- A dialogue in which everything went well. -/
example : AllWell [.wrote (frame 0xD3 [90]) (9, none), .got false ({}, none), .wrote ack (2, none),
    .wrote (frame 0xD1 []) (8, none), 
      .got true ({ command := 0xD2, data := [82, 80, 80, 80, 80, 15, 0, 0, 0] }, none),
    .wrote ack (2, none)] := by
  refine ⟨rfl, by decide, trivial, rfl, rfl, fun _ => rfl, trivial, rfl, by decide, ?_, rfl, rfl,
    fun _ => rfl, trivial, trivial⟩
  intro id
  cases id <;> decide

/-- The hypotheses of `C85_well` are met by a request that fails: nothing was written. -/
example :
    (Sys.execs demo ([.arrive (.setComfort 108)] ++ steps 4 (.client 0))
      (Sys.initial (stepStart 1))).any (fun (s : Sys UInt8) =>
        (match s.clients.map Client.prog with
          | [.ret r] => r.error? == some (.internal (.lib .tooHigh))
          | _ => false) &&
        dialogue (actsOf (.client 0) s.sh.trace) == []) = true := by
  set_option maxRecDepth 8000 in decide

end Comfo.Props
