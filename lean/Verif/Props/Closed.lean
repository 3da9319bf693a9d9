import Verif.Lemmas.Closed
import Verif.Props.Recover
/-!
# Property C102: a closed connection is not mistaken for the unit

The vocabulary is `Verif/Spec/Closed.lean`.
-/
namespace Comfo.Props
open Spec

/-! ## The examples' connection -/

/-- A connection the other end has closed; writes are accepted, or not. -/
def closedLine (accepts : Bool) : Line Unit where
  write bs _ := (if accepts then (bs.length, none) else (0, some .io), ())
  read e _ := ((readPacket { rd := [.fail []] } e).1, ())

def closedSetup (accepts : Bool) : Setup Unit where
  cv := amd64
  line := closedLine accepts
  env _ _ := True

theorem closedSetup_closed (accepts : Bool) : Closed (closedSetup accepts) fun _ => True :=
  ⟨fun _ _ _ _ => trivial, fun _ _ _ => trivial, fun _ _ _ => ⟨trivial, [], rfl⟩⟩

theorem closedSetup_accepting : Accepting (closedSetup true) fun _ => True :=
  ⟨fun _ _ _ => rfl, fun e _ _ => by
    show (readPacket { rd := [.fail []] } e).1 ≠ _
    cases e <;> decide⟩

theorem closedSetup_dead : Dead (closedSetup false) fun _ => True :=
  fun _ _ _ => by simp [closedSetup, closedLine]

/-- Requests that are to change something. -/
def changes : Call → Bool
  | .setSpeed .. | .setComfort _ | .setProfile .. => true
  | _ => false

/-! ## The property -/

/-- **C102**, negation. The property: a request that arrives after the connection was closed does
not report a change. The counterexample: a comfort temperature of 20 degrees. -/
theorem C102_violated :
    ¬ ∀ (σ : Type) (S : Setup σ) (D : σ → Prop) (w : World σ) (s₁ s₂ : Sys σ) (j : Nat) (c : Call) (r : Resp),
      Closed S D → Reachable S (Sys.initial w) s₁ → D s₁.sh.world.line → Reachable S s₁ s₂ →
      changes c = true → s₁.clients.length ≤ j → Answered s₂ j c r → saysChanged r = false := by
  intro h
  obtain ⟨s, hr, ht⟩ := exec_witness (S := closedSetup true) { line := () }
    ([.arrive (.setComfort 20)] ++ steps 18 (.client 0)) (fun _ _ => trivial)
    (fun s : Sys Unit => match (s.clients[0]? : Option Client) with
      | some { call := .setComfort x, prog := .ret r } => x == 20 && saysChanged r
      | _ => false) (by decide +kernel)
  split at ht
  · rename_i x r hc
    simp only [Bool.and_eq_true, beq_iff_eq] at ht
    have := h _ (closedSetup true) (fun _ => True) { line := () } _ s 0 (.setComfort x) r
      (closedSetup_closed true) .start trivial hr rfl (by simp [Sys.initial]) hc
    rw [ht.2] at this
    cases this
  · cases ht

/-! ## What happens instead -/

/-- From a closed connection no cache is ever changed, and everybody sees what is in them. -/
theorem closed_frozen {S : Setup σ} {D : σ → Prop} (hD : Closed S D) {w : World σ} {s₁ s₂ : Sys σ}
    (h₁ : Reachable S (Sys.initial w) s₁) (hd : D s₁.sh.world.line) (h₂ : Reachable S s₁ s₂)
    {ext : List (Tid × Act)} (he : s₂.sh.trace = s₁.sh.trace ++ ext) {id : CacheId}
    (hf : ∀ h ∈ s₁.sh.held, h.lock ≠ .cache id) :
    s₂.sh.world.get id = s₁.sh.world.get id ∧
    ∀ t c, (t, .load id c) ∈ ext → c = s₁.sh.world.get id := by
  obtain ⟨-, ext', he', hq⟩ := closed_reachable hD hd h₂
  have : ext' = ext := List.append_cancel_left (he'.symm.trans he)
  subst this
  obtain ⟨g, hi⟩ := inv3 h₁
  have hG : Glob3 (fun id => w.get id) g s₁.sh := hi.glob
  have rest : ∀ u, (g u).2 id = (none, .idle) := by
    intro u
    apply Classical.byContradiction
    intro hn
    exact hf _ ((hG.base.held_iff _ _ _).1 (hG.own id u hn)) rfl
  refine cache_frozen h₂ he fun t e hm => ?_
  obtain ⟨a, b, rfl⟩ := List.append_of_mem hm
  have h3 := store_current (reach_trans h₁ h₂) (pre := s₁.sh.trace ++ a) (post := b) (t := t)
    (e := e) (by rw [he]; simp)
  have h4 : (scanAll id (s₁.sh.trace ++ a)).1 = (scanAll id s₁.sh.trace).1 := by
    unfold scanAll
    rw [List.foldl_append]
    refine scan_closed (fun t e r hm => (hq.got t e r (by simp [hm])).1) _ fun u pl t => ?_
    have := hG.cur id u
    rw [rest u] at this
    unfold scanAll at this
    rw [this]; simp
  rw [hG.calm id fun u => by rw [rest u]]
  unfold current
  rw [← h4, h3]

/-- **C102** (1) Get requests keep on answering without error, with the values of before: a request
that arrives when the connection is closed gets what is in the cache at that moment, however long
it takes, if no refresh was under way. -/
theorem C102_stale {S : Setup σ} {D : σ → Prop} (hD : Closed S D) {w : World σ} {s₁ s₂ : Sys σ}
    (h₁ : Reachable S (Sys.initial w) s₁) (hd : D s₁.sh.world.line) (h₂ : Reachable S s₁ s₂)
    {id : CacheId} (hf : ∀ h ∈ s₁.sh.held, h.lock ≠ .cache id) {j : Nat} {r : Resp}
    (hj : s₁.clients.length ≤ j) (ha : Answered s₂ j (getCall id) r) :
    r = getAnswer id (s₁.sh.world.get id).val := by
  obtain ⟨mid, c, post, h1, -, h3⟩ := C58_no_going_back h₁ h₂ hj ha
  rw [h3, (closed_frozen hD h₁ hd h₂ (ext := mid ++ (.client j, .load id c) :: post)
    (by rw [h1]; simp) hf).2 (.client j) c (by simp)]

/-- What a request that arrived after the connection was closed did. -/
theorem acts_ext {S : Setup σ} {w : World σ} {s₁ s₂ : Sys σ} (h₁ : Reachable S (Sys.initial w) s₁)
    {ext : List (Tid × Act)} (he : s₂.sh.trace = s₁.sh.trace ++ ext) {j : Nat}
    (hj : s₁.clients.length ≤ j) : actsOf (.client j) s₂.sh.trace = actsOf (.client j) ext := by
  obtain ⟨g₁, hi₁⟩ := inv3 h₁
  rw [he, actsOf_append, hi₁.hist.fresh j hj, List.nil_append]

/-- A query for a reply fails. -/
theorem closed_fetch {id : CacheId} {fa : List Act} {v : CVal id} (h : FetchActs id fa (v, none))
    (hg : ∀ e r, Act.got e r ∈ fa → r.1 = {}) : False := by
  obtain ⟨q, e, ⟨evs, ht, rfl⟩, h2, -⟩ := h
  obtain ⟨rfl, -⟩ := h2.1 rfl
  cases ht with
  | complete n q hc =>
    have h3 := hc rfl
    have h4 := hg true (q, none) (by simp [toAct])
    simp only at h4
    rw [h4] at h3
    revert h3
    cases id <;> decide

/-- **C102** (2) `SetFanProfile`, which asks for the profiles first, reports no change. -/
theorem C102_profile_partial {S : Setup σ} {D : σ → Prop} (hD : Closed S D) {w : World σ}
    {s₁ s₂ : Sys σ} (h₁ : Reachable S (Sys.initial w) s₁) (hd : D s₁.sh.world.line)
    (h₂ : Reachable S s₁ s₂) {j : Nat} {m x : UInt32} {r : Resp} (hj : s₁.clients.length ≤ j)
    (ha : Answered s₂ j (.setProfile m x) r) : saysChanged r = false := by
  obtain ⟨-, ext, he, hq⟩ := closed_reachable hD hd h₂
  have hacts := acts_ext h₁ he hj
  obtain ⟨b, rfl, hb⟩ := (post_resp (post_setFanProfileRpc m x)).answered (c := .setProfile m x)
    (reach_trans h₁ h₂) ha
  rw [hacts] at hb
  have hg : ∀ e r, Act.got e r ∈ actsOf (.client j) ext → r.1 = {} := fun e r hm =>
    (hq.got _ _ _ (mem_actsOf.1 hm)).1
  generalize actsOf (.client j) ext = acts at hb hg
  cases hb with
  | set t c sa u stop h1 h2 h3 h4 h5 =>
    exfalso
    generalize hn : (none : Option Err) = z at h4
    cases h4 with
    | set fa sa' v e' a1 a2 a3 a4 =>
      exact closed_fetch a3 fun e r hm => hg e r (by simp [hm])
    | _ => cases hn
  | _ => rfl

/-- A command that was carried out was written without error. -/
theorem set_wrote {inp : SetRequest} {sa : List Act} (h : SetActs inp sa none) :
    ∃ bs n, Act.wrote bs (n, none) ∈ sa := by
  rcases h with ⟨bin, q, -, evs, ht, rfl⟩ | ⟨-, _, _, -, h⟩
  · cases ht with
    | complete n q hc => exact ⟨_, n, by simp [toAct]; exact .inl rfl⟩
  · cases h

/-- **C102** (3) If writes fail too, no request reports a change. -/
theorem C102_dead_partial {S : Setup σ} {D : σ → Prop} (hD : Closed S D) (hW : Dead S D)
    {w : World σ} {s₁ s₂ : Sys σ} (h₁ : Reachable S (Sys.initial w) s₁) (hd : D s₁.sh.world.line)
    (h₂ : Reachable S s₁ s₂) {j : Nat} {c : Call} {r : Resp} (hc : changes c = true)
    (hj : s₁.clients.length ≤ j) (ha : Answered s₂ j c r) : saysChanged r = false := by
  obtain ⟨-, ext, he, hq⟩ := closed_reachable hD hd h₂
  have hacts := acts_ext h₁ he hj
  have hr := reach_trans h₁ h₂
  have no : ∀ bs n, Act.wrote bs (n, none) ∉ actsOf (.client j) ext := by
    intro bs n hm
    obtain ⟨l, hl, hw⟩ := hq.wrote _ _ _ (mem_actsOf.1 hm)
    exact hW bs l hl (by rw [hw])
  cases c with
  | setSpeed abs rel =>
    obtain ⟨b, rfl, hb⟩ := (post_resp (post_setFanSpeed abs rel)).answered (c := .setSpeed abs rel) hr ha
    rw [hacts] at hb
    generalize actsOf (.client j) ext = acts at hb no
    cases hb with
    | set t c m sa p x y pa u stop a1 a2 a3 =>
      obtain ⟨bs, n, hm⟩ := set_wrote a3
      exact absurd (by simp [hm]) (no bs n)
    | _ => rfl
  | setComfort x =>
    obtain ⟨b, rfl, hb⟩ := (post_resp (post_setComfortTemp S.cv x)).answered (c := .setComfort x) hr ha
    rw [hacts] at hb
    generalize actsOf (.client j) ext = acts at hb no
    cases hb with
    | set t c sa u stop a1 a2 a3 =>
      obtain ⟨bs, n, hm⟩ := set_wrote a3
      exact absurd (by simp [hm]) (no bs n)
    | _ => rfl
  | setProfile m x => exact C102_profile_partial hD h₁ hd h₂ hj ha
  | _ => cases hc

/-- What a poll finds out if the readings do not change. -/
theorem poll_frozen {a b : UInt8} {n : Nat} {pa : List Act} {res : Option SrvErr} {X : Entry Fans}
    (h : PollActs a b n pa res) (hl : ∀ c, Act.load .fans c ∈ pa → c = X) :
    (res = none → X.val.inPercent = a ∧ X.val.outPercent = b) ∧
    (0 < n → X.val.inPercent = a → X.val.outPercent = b → res = none) := by
  induction h with
  | zero => simp
  | hit n u f g hu hf hg =>
    have e1 := hl f (by simp)
    have e2 := hl g (by simp)
    subst e1
    subst e2
    exact ⟨fun _ => ⟨hf, hg⟩, fun _ _ _ => rfl⟩
  | missIn n u rest res f hu hf hr ih =>
    have e1 := hl f (by simp)
    subst e1
    obtain ⟨i1, -⟩ := ih fun c hc => hl c (by simp [hc])
    exact ⟨i1, fun _ h1 _ => absurd h1 hf⟩
  | missOut n u rest res f g hu hf hg hr ih =>
    have e1 := hl f (by simp)
    have e2 := hl g (by simp)
    subst e1
    subst e2
    obtain ⟨i1, -⟩ := ih fun c hc => hl c (by simp [hc])
    exact ⟨i1, fun _ _ h2 => absurd h2 hg⟩

/-- The only error of a poll. -/
theorem poll_error {a b : UInt8} {n : Nat} {pa : List Act} {e : SrvErr}
    (h : PollActs a b n pa (some e)) : e = .pollFailed := by
  generalize hr : some e = res at h
  induction h with
  | zero => cases hr; rfl
  | hit => cases hr
  | missIn _ _ _ _ _ _ _ _ ih => exact ih hr
  | missOut _ _ _ _ _ _ _ _ _ _ ih => exact ih hr

/-- **C102** (4) `SetFanSpeed` reports a change only if the fans were last seen at the percentages
of the new speed. -/
theorem C102_speed_partial {S : Setup σ} {D : σ → Prop} (hD : Closed S D) {w : World σ}
    {s₁ s₂ : Sys σ} (h₁ : Reachable S (Sys.initial w) s₁) (hd : D s₁.sh.world.line)
    (h₂ : Reachable S s₁ s₂) (hp : ∀ h ∈ s₁.sh.held, h.lock ≠ .cache .profiles)
    (hf : ∀ h ∈ s₁.sh.held, h.lock ≠ .cache .fans) {j : Nat} {abs : UInt32} {rel : Bool}
    {r : Resp} (hj : s₁.clients.length ≤ j) (ha : Answered s₂ j (.setSpeed abs rel) r)
    (hch : saysChanged r = true) :
    ∃ m : UInt8, modifySpeed s₁.sh.world.profiles.val.currentMode abs rel = (m, none) ∧
      m ≠ s₁.sh.world.profiles.val.currentMode ∧
      s₁.sh.world.profiles.val.lookup m =
        ((s₁.sh.world.fans.val.inPercent, s₁.sh.world.fans.val.outPercent), none) := by
  obtain ⟨-, ext, he, hq⟩ := closed_reachable hD hd h₂
  have hacts := acts_ext h₁ he hj
  have lp : ∀ c, Act.load .profiles c ∈ actsOf (.client j) ext → c = s₁.sh.world.profiles :=
    fun c hm => (closed_frozen hD h₁ hd h₂ he hp).2 _ c (mem_actsOf.1 hm)
  have lf : ∀ c, Act.load .fans c ∈ actsOf (.client j) ext → c = s₁.sh.world.fans :=
    fun c hm => (closed_frozen hD h₁ hd h₂ he hf).2 _ c (mem_actsOf.1 hm)
  obtain ⟨b, rfl, hb⟩ := (post_resp (post_setFanSpeed abs rel)).answered (c := .setSpeed abs rel)
    (reach_trans h₁ h₂) ha
  rw [hacts] at hb
  generalize actsOf (.client j) ext = acts at hb lp lf
  cases hb with
  | set t c m sa p x y pa u stop a1 a2 a3 a4 a5 =>
    have e1 := lp c (by simp)
    have e2 := lp p (by simp)
    subst e1
    rw [e2] at a4
    obtain ⟨h3, h4⟩ := (poll_frozen a5 fun c hc => lf c (by simp [hc])).1 rfl
    exact ⟨m, a1, a2, by rw [a4, h3, h4]⟩
  | _ => cases hch

/-- A command to a connection that accepts everything. -/
theorem set_accepted {S : Setup σ} {D : σ → Prop} (hA : Accepting S D) {ext : List (Tid × Act)}
    (hq : Silence S D ext) {inp : SetRequest} {sa : List Act} {e : Option Err} {t : Tid}
    (hm : ∀ a ∈ sa, a ∈ actsOf t ext) (h : SetActs inp sa e) : e = inp.marshalBinary.2 := by
  have hw : ∀ bs r, Act.wrote bs r ∈ sa → r = (bs.length, none) := by
    intro bs r hx
    obtain ⟨l, hl, h1⟩ := hq.wrote _ _ _ (mem_actsOf.1 (hm _ hx))
    rw [← h1, hA.write bs l hl]
  have hg : ∀ e r, Act.got e r ∈ sa → r = ({}, none) := by
    rintro e ⟨q, err⟩ hx
    obtain ⟨h1, h2⟩ := hq.got _ _ _ (mem_actsOf.1 (hm _ hx))
    obtain ⟨l, hl, h3⟩ := hq.heard _ _ _ (mem_actsOf.1 (hm _ hx))
    simp only at h1 h2 h3
    subst h1
    rcases h2 with rfl | rfl
    · rfl
    · exact absurd h3 (hA.read e l hl)
  rcases h with ⟨bin, q, h1, evs, ht, rfl⟩ | ⟨-, bin, e', h1, rfl⟩
  · rw [h1]
    generalize hz : (q, e) = z at ht
    cases ht with
    | writeFailed n e1 => cases hw (frame inp.requestType bin) (n, some e1) (by simp [toAct])
    | readFailed n q e1 => cases hg false (q, some e1) (by simp [toAct])
    | wrongReply n q he => cases he
    | ackFailed n q m e1 =>
      have := hw ack (m, some e1) (by simp [toAct])
      cases this
    | ackShort n q m hc hm2 =>
      have := hw ack (m, none) (by simp [toAct])
      cases this
      exact absurd rfl hm2
    | complete n q hc => cases hz; rfl
  · rw [h1]

/-- **C102** (5) If writes are accepted and no timer is faster than the end of the stream,
`SetComfortTemp` reports that every temperature up to 107 °C, other than the one in the cache, was
set. And as the cache is not changed (`C102_stale`), it does so each time. -/
theorem C102_comfort {S : Setup σ} {D : σ → Prop} (hD : Closed S D) (hA : Accepting S D)
    {w : World σ} {s₁ s₂ : Sys σ} (h₁ : Reachable S (Sys.initial w) s₁) (hd : D s₁.sh.world.line)
    (h₂ : Reachable S s₁ s₂) (hf : ∀ h ∈ s₁.sh.held, h.lock ≠ .cache .temps) {j : Nat}
    {x : UInt32} {r : Resp} (hx : x.toNat ≤ 107) (hj : s₁.clients.length ≤ j)
    (ha : Answered s₂ j (.setComfort x) r) :
    ∃ v, r = .comfort (.ok v) ∧ v.targetTemp = x ∧
      (v.modified = true ↔ S.cv.u8 s₁.sh.world.temps.val.comfort ≠ x.toUInt8) := by
  obtain ⟨-, ext, he, hq⟩ := closed_reachable hD hd h₂
  have hacts := acts_ext h₁ he hj
  have lt : ∀ c, Act.load .temps c ∈ actsOf (.client j) ext → c = s₁.sh.world.temps :=
    fun c hm => (closed_frozen hD h₁ hd h₂ he hf).2 _ c (mem_actsOf.1 hm)
  obtain ⟨b, rfl, hb⟩ := (post_resp (post_setComfortTemp S.cv x)).answered (c := .setComfort x)
    (reach_trans h₁ h₂) ha
  rw [hacts] at hb
  have hsub : ∀ a ∈ actsOf (.client j) ext, a ∈ actsOf (.client j) ext := fun _ h => h
  generalize hac : actsOf (.client j) ext = acts at hb lt
  cases hb with
  | rejected t c h1 =>
    have : (255 : UInt32).toNat < x.toNat := h1
    have e : (255 : UInt32).toNat = 255 := rfl
    omega
  | same t c stop h1 h2 =>
    have e1 := lt c (by simp)
    subst e1
    exact ⟨_, rfl, rfl, by simp [h2]⟩
  | set t c sa u stop h1 h2 h3 =>
    have e1 := lt c (by simp)
    subst e1
    exact ⟨_, rfl, rfl, by simp [h2]⟩
  | setFailed t c sa e h1 h2 h3 =>
    have := set_accepted hA hq (t := .client j) (fun a ha => by rw [hac]; simp [ha]) h3
    exfalso
    have hb : x.toUInt8.toNat = x.toNat := by
      rw [UInt32.toNat_toUInt8]; omega
    rw [hb] at this
    have h4 : temperatureMarshal (x.toNat : Int) = (UInt8.ofNat (((x.toNat : Int) + 20) * 2).toNat, none) := by
      unfold temperatureMarshal
      rw [if_neg (by omega), if_neg (by omega)]
    simp only [SetRequest.marshalBinary, h4] at this
    cases this

/-- **C102** (6) `SetFanSpeed` then reports a change exactly if the fans were last seen at the
percentages of the new speed; otherwise it fails after its polls. -/
theorem C102_speed_exact {S : Setup σ} {D : σ → Prop} (hD : Closed S D) (hA : Accepting S D)
    {w : World σ} {s₁ s₂ : Sys σ} (h₁ : Reachable S (Sys.initial w) s₁) (hd : D s₁.sh.world.line)
    (h₂ : Reachable S s₁ s₂) (hp : ∀ h ∈ s₁.sh.held, h.lock ≠ .cache .profiles)
    (hf : ∀ h ∈ s₁.sh.held, h.lock ≠ .cache .fans) {j : Nat} {abs : UInt32} {rel : Bool}
    {r : Resp} (hj : s₁.clients.length ≤ j) (ha : Answered s₂ j (.setSpeed abs rel) r) {m : UInt8}
    (hm : modifySpeed s₁.sh.world.profiles.val.currentMode abs rel = (m, none))
    (hne : m ≠ s₁.sh.world.profiles.val.currentMode) :
    (saysChanged r = true ↔ s₁.sh.world.profiles.val.lookup m =
        ((s₁.sh.world.fans.val.inPercent, s₁.sh.world.fans.val.outPercent), none)) ∧
    (saysChanged r = false → r = .speed (.err (.internal .pollFailed))) := by
  obtain ⟨-, ext, he, hq⟩ := closed_reachable hD hd h₂
  have hacts := acts_ext h₁ he hj
  have lp : ∀ c, Act.load .profiles c ∈ actsOf (.client j) ext → c = s₁.sh.world.profiles :=
    fun c hm => (closed_frozen hD h₁ hd h₂ he hp).2 _ c (mem_actsOf.1 hm)
  have lf : ∀ c, Act.load .fans c ∈ actsOf (.client j) ext → c = s₁.sh.world.fans :=
    fun c hm => (closed_frozen hD h₁ hd h₂ he hf).2 _ c (mem_actsOf.1 hm)
  obtain ⟨b, rfl, hb⟩ := (post_resp (post_setFanSpeed abs rel)).answered (c := .setSpeed abs rel)
    (reach_trans h₁ h₂) ha
  rw [hacts] at hb
  generalize hac : actsOf (.client j) ext = acts at hb lp lf
  cases hb with
  | rejected t c b e a1 =>
    have e1 := lp c (by simp)
    subst e1
    rw [hm] at a1; cases a1
  | same t c stop a1 =>
    have e1 := lp c (by simp)
    subst e1
    rw [hm] at a1; cases a1
    exact absurd rfl hne
  | setFailed t c m' sa e a1 a2 a3 =>
    exfalso
    have e1 := lp c (by simp)
    subst e1
    rw [hm] at a1; cases a1
    have := set_accepted hA hq (t := .client j) (fun a ha => by rw [hac]; simp [ha]) a3
    simp only [SetRequest.marshalBinary] at this
    rw [if_neg fun h => by
      have := (modifySpeed_range hm).2
      have h5 : (4 : UInt8).toNat < m.toNat := h
      have e4 : (4 : UInt8).toNat = 4 := rfl
      omega] at this
    cases this
  | noTarget t c m' sa p e a1 a2 a3 a4 =>
    exfalso
    have e1 := lp c (by simp)
    have e2 := lp p (by simp)
    subst e1
    rw [hm] at a1; cases a1
    have : m = 1 ∨ m = 2 ∨ m = 3 ∨ m = 4 := by
      obtain ⟨h1, h2⟩ := modifySpeed_range hm
      have e1 : (1 : UInt8).toNat = 1 := rfl
      have e2 : (4 : UInt8).toNat = 4 := rfl
      simp only [← UInt8.toNat_inj]
      have e3 : (2 : UInt8).toNat = 2 := rfl
      have e4 : (3 : UInt8).toNat = 3 := rfl
      omega
    rcases this with rfl | rfl | rfl | rfl <;> cases a4
  | pollFailed t c m' sa p x y pa e a1 a2 a3 a4 a5 =>
    have e1 := lp c (by simp)
    have e2 := lp p (by simp)
    subst e1
    rw [hm] at a1; cases a1
    rw [e2] at a4
    have hpo := (poll_frozen a5 fun c hc => lf c (by simp [hc])).2 (by decide)
    refine ⟨⟨(fun h => by cases h), fun h => ?_⟩, fun _ => ?_⟩
    · rw [a4] at h
      cases h
      cases hpo rfl rfl
    · rw [poll_error a5]
  | set t c m' sa p x y pa u stop a1 a2 a3 a4 a5 =>
    have e1 := lp c (by simp)
    have e2 := lp p (by simp)
    subst e1
    rw [hm] at a1; cases a1
    rw [e2] at a4
    obtain ⟨h3, h4⟩ := (poll_frozen a5 fun c hc => lf c (by simp [hc])).1 rfl
    exact ⟨⟨fun _ => by rw [a4, h3, h4], fun _ => rfl⟩, fun h => by cases h⟩

/-! ## Examples -/

/-- Away is at 15 %, which is what the fans do, though the speed is 2. -/
def closedStart : World Unit :=
  { line := ()
    temps := { val := { comfort := 21 } }
    fans := { val := { inPercent := 15, outPercent := 15 } }
    profiles := { val := { inAway := 15, outAway := 15, inLow := 30, outLow := 30, inMid := 50, outMid := 50, currentMode := 2 } } }

/-- The answers. -/
def stillAnswers (s : Sys σ) : List Resp :=
  s.clients.filterMap fun c => match c.prog with | .ret r => some r | _ => none

/-- Nothing is locked, writes are accepted: the comfort temperature is set twice, the fan speed once
to away, which "works", and once to 3, which fails after ten polls. -/
example :
    (Sys.execs (closedSetup true) ([.arrive (.setComfort 23)] ++ steps 18 (.client 0) ++
        [.arrive (.setComfort 23)] ++ steps 18 (.client 1) ++ [.arrive (.setSpeed 1 false)] ++ steps 31 (.client 2) ++
        [.arrive (.setSpeed 3 false)] ++ steps 112 (.client 3) ++ [.arrive .getTemps] ++ steps 3 (.client 4))
      (Sys.initial closedStart)).any (fun s => (stillAnswers s).map saysChanged == [true, true, true, false, false] &&
        decide ((stillAnswers s).length = 5)) = true := by
  decide +kernel

/-- `SetFanProfile` fails at its query; and nothing succeeds if writes fail. -/
example :
    (Sys.execs (closedSetup true) ([.arrive (.setProfile 2 35)] ++ steps 10 (.client 0))
      (Sys.initial closedStart)).any (fun s => (stillAnswers s).map saysChanged == [false]) = true ∧
    (Sys.execs (closedSetup false) ([.arrive (.setComfort 23)] ++ steps 7 (.client 0) ++
        [.arrive (.setSpeed 1 false)] ++ steps 7 (.client 1) ++ [.arrive (.setProfile 2 35)] ++ steps 9 (.client 2))
      (Sys.initial closedStart)).any (fun s => (stillAnswers s).map saysChanged == [false, false, false]) = true := by
  decide +kernel

end Comfo.Props
