import Verif.Lemmas.Recover
import Verif.Lemmas.Steps
import Verif.Props.Echo
/-!
# Property C100: the server recovers from an outage of the unit; C63 for the server

The model is `Verif/Model/PortLine.lean`, the vocabulary `Verif/Spec/Recover.lean`.
-/
namespace Comfo.Props
open Spec Comfo.Leak

/-! ## The examples' unit -/

/-- The answer to a frame: an acknowledgement, and if more is asked for a reply, empty except for
the bypass. -/
def replyTo (bs : List UInt8) : Packet :=
  { command := bs.getD 3 0 + 1, data := if bs.getD 3 0 = 0xDF then [0, 1, 2, 3, 4, 0, 0] else [] }

/-- A unit that sleeps through the frames marked in its plan, and answers all others, in one piece
or in two. -/
def sleepy (halves : Bool) : Responder (List Bool) where
  hear bs e plan :=
    (if plan.headD false then []
      else if e then
        if halves then [ack, frame (replyTo bs).command (replyTo bs).data]
        else [ack ++ frame (replyTo bs).command (replyTo bs).data]
      else [ack], plan.tail)

/-- It does not sleep any more. -/
def upAgain (plan : List Bool) : Prop := ∀ b ∈ plan, b = false

def sleepySetup (halves : Bool) : Setup (Shore (List Bool)) where
  cv := amd64
  line := portLine (sleepy halves)
  env a b := b = a

def sleepyStart (plan : List Bool) : World (Shore (List Bool)) :=
  { line := { unit := plan } }

theorem replyTo_good (bs : List UInt8) :
    GoodReply (queried bs true) (ack ++ frame (replyTo bs).command (replyTo bs).data) (replyTo bs) := by
  refine ⟨?_, rfl, rfl, rfl, ?_⟩
  · unfold replyTo; simp only; split <;> decide
  · unfold replyTo
    simp only
    split
    · rename_i h
      rw [h]; decide
    · rw [← noDelimB_iff]
      simp [noDelimB, IsDelim]

theorem sleepy_whole : Whole (sleepy false) := by
  intro bs e plan
  simp only [sleepy]
  split
  · exact .inl rfl
  · refine .inr ?_
    cases e with
    | true => exact ⟨_, _, rfl, replyTo_good bs⟩
    | false => exact ⟨_, {}, rfl, rfl, rfl⟩

theorem sleepy_halves : InHalves (sleepy true) := by
  intro bs e plan
  simp only [sleepy]
  split
  · exact .inl rfl
  · refine .inr ?_
    cases e with
    | true => exact ⟨replyTo bs, rfl, by simpa using replyTo_good bs⟩
    | false => exact ⟨{}, rfl, rfl, rfl⟩

theorem sleepy_wakes (halves : Bool) : Wakeful (sleepy halves) upAgain := by
  intro bs e plan hp
  have : plan.headD false = false := by
    cases plan with
    | nil => rfl
    | cons b r => exact hp b (List.mem_cons_self ..)
  refine ⟨?_, fun b hb => hp b (List.mem_of_mem_tail hb)⟩
  simp only [sleepy, this, Bool.false_eq_true, if_false]
  cases e <;> cases halves <;> simp

theorem sleepy_only (halves : Bool) : OnlyUnit upAgain (sleepySetup halves).env := by
  rintro a b rfl
  exact ⟨rfl, rfl, id⟩

/-! ## After an outage -/

/-- **C100**, negation. The property: as soon as the unit answers again, everything works again,
but for as many reads as had timed out. The counterexample: a unit that answers in one piece does
not answer one query, and then answers all. -/
theorem C100_violated :
    ¬ ∀ (υ : Type) (U : Responder υ) (awake : υ → Prop) (S : Setup (Shore υ)) (w : World (Shore υ))
        (s₁ s₂ : Sys (Shore υ)) (ext : List (Tid × Act)),
      S.line = portLine U → Whole U ∨ InHalves U → Wakeful U awake → OnlyUnit awake S.env →
      w.line.port = {} → Reachable S (Sys.initial w) s₁ → awake s₁.sh.world.line.unit →
      Reachable S s₁ s₂ → s₂.sh.trace = s₁.sh.trace ++ ext → readFailures ext ≤ timeouts s₁.sh.trace := by
  intro h
  obtain ⟨s₁, s₂, r1, t1, r2, t2⟩ := exec_witness2 (S := sleepySetup false) (sleepyStart [true])
    ([.arrive (.libQuery bypassQuery)] ++ steps 4 (.client 0))
    ([.arrive (.libQuery bypassQuery)] ++ steps 4 (.client 1) ++ [.arrive (.libQuery bypassQuery)] ++
      steps 4 (.client 2)) (fun _ => trivial)
    (fun s => decide (s.sh.world.line.unit = [] ∧ timeouts s.sh.trace = 1 ∧ readFailures s.sh.trace = 1))
    (fun s => decide (readFailures s.sh.trace = 3)) (by decide +kernel)
  simp only [decide_eq_true_eq] at t1 t2
  obtain ⟨t1, t3, t4⟩ := t1
  obtain ⟨ext, he⟩ := trace_grows r2
  have := h _ (sleepy false) upAgain (sleepySetup false) (sleepyStart [true]) s₁ s₂ ext rfl
    (.inl sleepy_whole) (sleepy_wakes _) (sleepy_only _) rfl r1 (by rw [t1]; simp [upAgain]) r2 he
  have e : readFailures s₂.sh.trace = readFailures s₁.sh.trace + readFailures ext := by
    rw [he]; simp [readFailures, List.filter_append]
  omega

/-- **C100** What happens instead, if the unit's answers arrive in one piece: once a read has timed
out, all reads of all goroutines time out, for ever, though the unit answers each of them. -/
theorem C100_deaf {U : Responder υ} {awake : υ → Prop} {S : Setup (Shore υ)}
    (hL : S.line = portLine U) (hU : Whole U) (hE : OnlyUnit awake S.env) {w : World (Shore υ)}
    (hw : w.line.port = {}) {s : Sys (Shore υ)} (h : Reachable S (Sys.initial w) s)
    {pre post : List (Tid × Act)} {t : Tid} {e : Bool} {r : Packet × Option Err}
    (ht : s.sh.trace = pre ++ (t, .got e r) :: post) (hp : 0 < timeouts pre) :
    r = ({}, some .timeout) :=
  (deaf_reachable hL hU hE hw h).after pre t e r post ht hp

theorem deaf_ext {U : Responder υ} {awake : υ → Prop} {S : Setup (Shore υ)}
    (hL : S.line = portLine U) (hU : Whole U) (hE : OnlyUnit awake S.env) {w : World (Shore υ)}
    (hw : w.line.port = {}) {s₁ s₂ : Sys (Shore υ)} (h₁ : Reachable S (Sys.initial w) s₁)
    (hp : 0 < timeouts s₁.sh.trace) (h₂ : Reachable S s₁ s₂) {ext : List (Tid × Act)}
    (he : s₂.sh.trace = s₁.sh.trace ++ ext) {t : Tid} {e : Bool} {r : Packet × Option Err}
    (hm : (t, .got e r) ∈ ext) : r = ({}, some .timeout) := by
  obtain ⟨a, b, rfl⟩ := List.append_of_mem hm
  refine C100_deaf hL hU hE hw (reach_trans h₁ h₂) (pre := s₁.sh.trace ++ a) (t := t) (e := e)
    (post := b) (by rw [he]; simp) ?_
  rw [timeouts_append]
  omega

/-- **C100** (2) From then on Get requests answer with the values of before: a request that arrives
after a read has timed out gets what the last refresh that succeeded before had brought, if none
was under way. -/
theorem C100_stale {U : Responder υ} {awake : υ → Prop} {S : Setup (Shore υ)}
    (hL : S.line = portLine U) (hU : Whole U) (hE : OnlyUnit awake S.env) {w : World (Shore υ)}
    (hw : w.line.port = {}) {s₁ s₂ : Sys (Shore υ)} (h₁ : Reachable S (Sys.initial w) s₁)
    (hp : 0 < timeouts s₁.sh.trace) (h₂ : Reachable S s₁ s₂) {id : CacheId}
    (hf : ∀ h ∈ s₁.sh.held, h.lock ≠ .cache id) {j : Nat} {r : Resp}
    (hj : s₁.clients.length ≤ j) (ha : Answered s₂ j (getCall id) r) :
    r = getAnswer id (current id (w.get id) s₁.sh.trace).val := by
  obtain ⟨mid, c, post, h1, h2, h3⟩ := C58_no_going_back h₁ h₂ hj ha
  obtain ⟨g, hi⟩ := inv3 h₁
  have hG : Glob3 (fun id => w.get id) g s₁.sh := hi.glob
  have idle : ∀ u, (scanAll id s₁.sh.trace).2 u = .idle := by
    intro u
    rw [hG.cur]
    apply Classical.byContradiction
    intro hn
    have := hG.own id u fun h => hn (by rw [h])
    exact hf _ ((hG.base.held_iff _ _ _).1 this) rfl
  have hs : (scanAll id (s₁.sh.trace ++ mid)).1 = (scanAll id s₁.sh.trace).1 := by
    unfold scanAll
    rw [List.foldl_append]
    refine scan_failing (fun t e r hm => ?_) _ fun u pl t => ?_
    · have := deaf_ext hL hU hE hw h₁ hp h₂ (ext := mid ++ (.client j, .load id c) :: post)
        (by rw [h1]; simp) (t := t) (e := e) (r := r) (by simp [hm])
      rw [this]; simp
    · have := idle u
      unfold scanAll at this
      rw [this]; simp
  rw [h3, h2]
  unfold current
  rw [hs]

/-- The response reports that the unit was changed. -/
def saysChanged : Resp → Bool
  | .speed (.ok a) => a.modified
  | .comfort (.ok a) => a.modified
  | _ => false

/-- **C100** (3) And no request to change something that arrives then succeeds in doing so. -/
theorem C100_unmodified {U : Responder υ} {awake : υ → Prop} {S : Setup (Shore υ)}
    (hL : S.line = portLine U) (hU : Whole U) (hE : OnlyUnit awake S.env) {w : World (Shore υ)}
    (hw : w.line.port = {}) {s₁ s₂ : Sys (Shore υ)} (h₁ : Reachable S (Sys.initial w) s₁)
    (hp : 0 < timeouts s₁.sh.trace) (h₂ : Reachable S s₁ s₂) {j : Nat} {c : Call} {r : Resp}
    (hc : (∃ abs rel, c = .setSpeed abs rel) ∨ (∃ x, c = .setComfort x) ∨ ∃ m x, c = .setProfile m x)
    (hj : s₁.clients.length ≤ j) (ha : Answered s₂ j c r) : saysChanged r = false := by
  have h := reach_trans h₁ h₂
  obtain ⟨g₁, hi₁⟩ := inv3 h₁
  obtain ⟨ext, he⟩ := trace_grows h₂
  have hacts : actsOf (.client j) s₂.sh.trace = actsOf (.client j) ext := by
    rw [he, actsOf_append, hi₁.hist.fresh j hj, List.nil_append]
  have no : ∀ bs, ¬ Sent bs (actsOf (.client j) s₂.sh.trace) := by
    rintro bs ⟨as, r', e, q, bs', hs⟩
    rw [hacts] at hs
    have hm : (Tid.client j, Act.got e (q, none)) ∈ ext := by
      rw [← mem_actsOf, hs]; simp
    have := deaf_ext hL hU hE hw h₁ hp h₂ he hm
    simp at this
  have hpath := answered_path h ha
  cases hch : saysChanged r with
  | false => rfl
  | true =>
    exfalso
    rcases hc with ⟨abs, rel, rfl⟩ | ⟨x, rfl⟩ | ⟨m, x, rfl⟩
    · obtain ⟨t, c, rest, e1, e2⟩ := setSpeed_path hpath
      obtain ⟨a, rfl⟩ : ∃ a, r = .speed (.ok a) := by
        obtain ⟨b, rfl, -⟩ := (post_resp (post_setFanSpeed abs rel)).answered (c := .setSpeed abs rel) h ha
        cases b with
        | ok a => exact ⟨a, rfl⟩
        | err e => cases hch
      obtain ⟨m, -, -, -, e3, -⟩ := e2 a rfl
      have := (e3 hch).2.append [.now t, .lock .fan, .load .profiles c] []
      rw [List.append_nil] at this
      exact no _ (by rw [e1]; exact this)
    · obtain ⟨t, c, rest, e1, e2⟩ := setComfort_path hpath
      obtain ⟨a, rfl⟩ : ∃ a, r = .comfort (.ok a) := by
        obtain ⟨b, rfl, -⟩ := (post_resp (post_setComfortTemp S.cv x)).answered (c := .setComfort x) h ha
        cases b with
        | ok a => exact ⟨a, rfl⟩
        | err e => cases hch
      obtain ⟨-, -, e3, -⟩ := e2 a rfl
      obtain ⟨b, -, hs⟩ := e3 hch
      have := hs.append [.now t, .load .temps c] []
      rw [List.append_nil] at this
      exact no _ (by rw [e1]; exact this)
    · obtain ⟨b, rfl, hb⟩ := (post_resp (post_setFanProfileRpc m x)).answered (c := .setProfile m x) h ha
      cases b with
      | err e => cases hch
      | ok a =>
        obtain ⟨-, -, -, -, -, h6, -⟩ := setProfile_sent hb
        obtain ⟨old, hs, -⟩ := h6 hch
        exact no _ hs

/-- **C100** (partial) If the unit's answers to queries arrive in two pieces, the acknowledgement
and the reply, the server does recover: when the unit is awake again in `s₁`, at most as many
queries fail from then on as reads had timed out before, and after as many queries every read, of
replies and acknowledgements, succeeds.
Missing: until then commands (answered with an acknowledgement only) fail any number of times
(`C100_commands`); and units that answer in one piece, for which the claim is false (`C100_deaf`). -/
theorem C100_halves_partial {U : Responder υ} {awake : υ → Prop} {S : Setup (Shore υ)}
    (hL : S.line = portLine U) (hU : InHalves U) (hA : Wakeful U awake) (hE : OnlyUnit awake S.env)
    {w : World (Shore υ)} (hw : w.line.port = {}) {s₁ s₂ : Sys (Shore υ)}
    (h₁ : Reachable S (Sys.initial w) s₁) (ha : awake s₁.sh.world.line.unit) (h₂ : Reachable S s₁ s₂)
    {ext : List (Tid × Act)} (he : s₂.sh.trace = s₁.sh.trace ++ ext) :
    replyFailures ext ≤ timeouts s₁.sh.trace ∧
    ∀ (pre : List (Tid × Act)) t e (r : Packet × Option Err) post,
      ext = pre ++ (t, .got e r) :: post → timeouts s₁.sh.trace ≤ replyReads pre → r.2 = none := by
  obtain ⟨k, hk, hk'⟩ := halves_reachable hL hU hE hw h₁
  obtain ⟨ext', he', h3, ⟨k', h4, h5, h6⟩, h7⟩ := healing_reachable hL hU hA hE hk ha h₂
  have : ext' = ext := by
    rw [he'] at he
    exact List.append_cancel_left he
  subst this
  exact ⟨by omega, fun pre t e r post hx hr => (h7 pre t e r post hx).2 (by omega)⟩

/-- **C100** Precisely: there is a number of queries, not more than the reads that had timed out, before
which every read fails, of replies and of acknowledgements, and after which every one succeeds. -/
theorem C100_exactly {U : Responder υ} {awake : υ → Prop} {S : Setup (Shore υ)}
    (hL : S.line = portLine U) (hU : InHalves U) (hA : Wakeful U awake) (hE : OnlyUnit awake S.env)
    {w : World (Shore υ)} (hw : w.line.port = {}) {s₁ : Sys (Shore υ)}
    (h₁ : Reachable S (Sys.initial w) s₁) (ha : awake s₁.sh.world.line.unit) :
    ∃ k, k ≤ timeouts s₁.sh.trace ∧ ∀ (s₂ : Sys (Shore υ)) (ext : List (Tid × Act)),
      Reachable S s₁ s₂ → s₂.sh.trace = s₁.sh.trace ++ ext →
      ∀ (pre : List (Tid × Act)) t e (r : Packet × Option Err) post,
        ext = pre ++ (t, .got e r) :: post → (r.2 = none ↔ k ≤ replyReads pre) := by
  obtain ⟨k, hk, hk'⟩ := halves_reachable hL hU hE hw h₁
  refine ⟨k, hk', fun s₂ ext h₂ he => ?_⟩
  obtain ⟨ext', he', -, -, h7⟩ := healing_reachable hL hU hA hE hk ha h₂
  rw [he'] at he
  rw [← List.append_cancel_left he]
  exact h7

/-- **C100** So commands do not help: when a command is not confirmed though the unit is awake, no later
one is before the server has asked the unit for something. -/
theorem C100_commands {U : Responder υ} {awake : υ → Prop} {S : Setup (Shore υ)}
    (hL : S.line = portLine U) (hU : InHalves U) (hA : Wakeful U awake) (hE : OnlyUnit awake S.env)
    {w : World (Shore υ)} (hw : w.line.port = {}) {s₁ s₂ : Sys (Shore υ)}
    (h₁ : Reachable S (Sys.initial w) s₁) (ha : awake s₁.sh.world.line.unit) (h₂ : Reachable S s₁ s₂)
    {pre mid post : List (Tid × Act)} {t t' : Tid} {e : Bool} {r r' : Packet × Option Err}
    (he : s₂.sh.trace = s₁.sh.trace ++ pre ++ (t, .got false r) :: mid ++ (t', .got e r') :: post)
    (hr : r.2 ≠ none) (hm : ∀ u x, (u, .got true x) ∉ mid) : r'.2 ≠ none := by
  obtain ⟨k, -, h⟩ := C100_exactly hL hU hA hE hw h₁ ha
  have h' := h s₂ (pre ++ (t, .got false r) :: mid ++ (t', .got e r') :: post) h₂ (by rw [he]; simp)
  have f1 := h' pre t false r (mid ++ (t', .got e r') :: post) (by simp)
  have f2 := h' (pre ++ (t, .got false r) :: mid) t' e r' post rfl
  have hz : replyReads mid = 0 := by
    unfold replyReads
    rw [List.length_eq_zero_iff, List.filter_eq_nil_iff]
    rintro ⟨u, a⟩ hu hx
    cases a with
    | got b x =>
      cases b with
      | true => exact hm u x hu
      | false => cases hx
    | _ => cases hx
  have hc : replyReads (pre ++ (t, .got false r) :: mid) = replyReads pre := by
    have : replyReads (pre ++ (t, .got false r) :: mid) = replyReads pre + replyReads mid := by
      simp [replyReads]
    omega
  rw [hc] at f2
  exact fun h => hr (f1.2 (f2.1 h))

/-- **C100** (partial) And a unit that is never silent is always heard: each read succeeds, with
what one of its answers says. Answers in one piece or two. -/
theorem C100_no_outage_partial {U : Responder υ} {awake : υ → Prop} {S : Setup (Shore υ)}
    (hL : S.line = portLine U) (hU : Whole U ∨ InHalves U) (hA : Wakeful U awake)
    (hE : OnlyUnit awake S.env) {w : World (Shore υ)} (hw : w.line.port = {})
    (ha : awake w.line.unit) {s : Sys (Shore υ)} (h : Reachable S (Sys.initial w) s) {t : Tid}
    {e : Bool} {r : Packet × Option Err} (hm : (t, .got e r) ∈ s.sh.trace) :
    r.2 = none ∧ ∃ bs u, GoodReply (queried bs e) (U.hear bs e u).1.flatten r.1 := by
  refine awake_reachable hL (awake := awake) (fun bs e u hu => ?_) hE hw ha h t e r hm
  obtain ⟨h1, h2⟩ := hA bs e u hu
  refine ⟨h2, ?_⟩
  rcases hU with hU | hU
  · rcases hU bs e u with h0 | ⟨c, v, h0, hg⟩
    · exact absurd h0 h1
    · exact ⟨v, by rw [h0]; simpa using hg, .inl (by rw [h0]; simp)⟩
  · rcases hU bs e u with h0 | ⟨v, hv, hg⟩
    · exact absurd h0 h1
    · exact ⟨v, hg, .inr hv⟩

/-! ## Examples -/

/-- A flush of the bypass and a Get request after it; and a fan speed. -/
def flushBypass (i n : Nat) : List Cmd :=
  [.arrive (.flush 4)] ++ steps 2 (.client i) ++ steps n .worker ++ steps 2 (.client i)

/-- One piece, and the unit sleeps through the second query: the refresh before has brought a value,
the one after it, though answered, does not. -/
example :
    (Sys.execs (sleepySetup false) (flushBypass 0 10 ++ flushBypass 1 8) (Sys.initial (sleepyStart [false, true]))).any
      (fun s₁ => decide (timeouts s₁.sh.trace = 1 ∧ s₁.sh.held = [] ∧ s₁.sh.world.line.unit = [] ∧
          (current .bypass ((sleepyStart []).get .bypass) s₁.sh.trace).val.factor = 2) &&
        (Sys.execs (sleepySetup false) (flushBypass 2 8 ++ [.arrive .getBypass] ++ steps 3 (.client 3) ++
            [.arrive (.libQuery speedCommand)] ++ steps 4 (.client 4)) s₁).any
          fun s₂ => decide (readFailures s₂.sh.trace = 3) &&
            (s₂.clients.map fun k => match k.prog with | .ret (.bypass (.ok v)) => v.factor.toNat | _ => 0)
              == [0, 0, 0, 2, 0]) = true := by
  decide +kernel

/-- Two pieces, and the unit sleeps through the first two queries: the third (answered) fails, the
fourth fails, the fifth succeeds. -/
example :
    (Sys.execs (sleepySetup true) (flushBypass 0 8 ++ flushBypass 1 8) (Sys.initial (sleepyStart [true, true]))).any
      (fun s₁ => decide (timeouts s₁.sh.trace = 2 ∧ s₁.sh.world.line.unit = []) &&
        (Sys.execs (sleepySetup true) (flushBypass 2 8 ++ flushBypass 3 8 ++ flushBypass 4 10 ++
            [.arrive .getBypass] ++ steps 3 (.client 5)) s₁).any
          fun s₂ => decide (replyReads s₂.sh.trace = 5 ∧ replyFailures s₂.sh.trace = 4) &&
            (s₂.clients.map fun k => match k.prog with | .ret (.bypass (.ok v)) => v.factor.toNat | _ => 0)
              == [0, 0, 0, 0, 0, 2]) = true := by
  decide +kernel

/-- Two pieces, and the unit sleeps through the first query: three commands, all answered, fail, and so
does the next query; then a command succeeds. -/
example :
    (Sys.execs (sleepySetup true) (flushBypass 0 8) (Sys.initial (sleepyStart [true]))).any
      (fun s₁ => decide (timeouts s₁.sh.trace = 1 ∧ s₁.sh.world.line.unit = []) &&
        (Sys.execs (sleepySetup true) ([.arrive (.libQuery speedCommand)] ++ steps 4 (.client 1) ++
            [.arrive (.libQuery speedCommand)] ++ steps 4 (.client 2) ++ [.arrive (.libQuery speedCommand)] ++
            steps 4 (.client 3) ++ flushBypass 4 8 ++ [.arrive (.libQuery speedCommand)] ++
            steps 5 (.client 5)) s₁).any
          fun s₂ => (s₂.sh.trace.filterMap fun x => match x.2 with | .got e r => some (e, r.2.isNone) | _ => none)
            == [(true, false), (false, false), (false, false), (false, false), (true, false), (false, true)]) = true := by
  decide +kernel

/-! ## Goroutines left behind -/

/-- A query in progress, or over. -/
def During (st₀ : Port) (p : Packet) (st : Port) : Prop :=
  LeakInv st ∧ ((st.active = some p ∧ st.results = st₀.results) ∨
    (st.active = none ∧ ∃ r, st.results = st₀.results ++ [(p, r)] ∧ r ≠ .ret {} (some .timeout)))

theorem during_read {st₀ st : Port} {p : Packet} {e : Ev} (he : e = .deliver ∨ ∃ bs, e = .arrive bs)
    (h : During st₀ p st) : During st₀ p (st.step e) := by
  obtain ⟨hl, h⟩ := h
  refine ⟨leakInv_step st e hl, ?_⟩
  rcases he with rfl | ⟨bs, rfl⟩
  · simp only [Port.step]
    split
    · split
      · exact h
      · exact h
      · split
        · next n p' hm ha =>
          rcases h with ⟨h1, h2⟩ | ⟨h1, -⟩
          · rw [h1] at ha
            cases ha
            split
            · next r hr =>
              exact .inr ⟨rfl, queryResult p r, by simp only [Port.finish, h2], queryResult_ne_timeout (afterScan_ne_timeout hr)⟩
            · split
              · next r hr =>
                exact .inr ⟨rfl, queryResult p r, by simp only [Port.finish, h2], queryResult_ne_timeout (advance_ne_timeout hr)⟩
              · exact .inl ⟨h1, h2⟩
          · rw [h1] at ha; cases ha
        · exact h
    · exact h
  · exact h

theorem during_settle {st₀ st : Port} {p : Packet} (h : During st₀ p st) : During st₀ p st.settle := by
  unfold Port.settle Port.exec
  generalize (st.pending.map List.length).sum + st.pending.length = n
  induction n generalizing st with
  | zero => exact h
  | succ n ih => exact ih (during_read (.inl rfl) h)

/-- What a query does to the number of goroutines left behind. -/
theorem query_leaks {st : Port} (hl : LeakInv st) (ha : st.active = none) (p : Packet)
    (pieces : List (List UInt8)) :
    LeakInv (st.query p pieces) ∧ (st.query p pieces).active = none ∧
    ∃ r, (st.query p pieces).results = st.results ++ [(p, r)] := by
  have h0 : During st p (st.step (.start p)) :=
    ⟨leakInv_step st _ hl, .inl (by simp [Port.step, ha])⟩
  have : During st p (pieces.foldl (fun st c => (st.step (.arrive c)).settle) (st.step (.start p))) := by
    generalize st.step (.start p) = x at h0
    induction pieces generalizing x with
    | nil => exact h0
    | cons c cs ih => exact ih _ (during_settle (during_read (.inr ⟨c, rfl⟩) h0))
  unfold Port.query
  simp only
  generalize pieces.foldl (fun st c => (st.step (.arrive c)).settle) (st.step (.start p)) = y at this
  obtain ⟨h1, ⟨h2, h3⟩ | ⟨h2, r, h3, -⟩⟩ := this
  · rw [h2]
    simp only [Option.isSome_some, if_true]
    refine ⟨leakInv_step y _ h1, ?_, .ret {} (some .timeout), ?_⟩
    · simp [Port.step, h2]
    · simp [Port.step, h2, h3]
  · rw [h2]
    simp only [Option.isSome_none, Bool.false_eq_true, if_false]
    exact ⟨h1, h2, r, h3⟩

/-- **C63** (partial) The same for the running server, whatever the unit does: at every moment of
every execution the number of goroutines left behind is the number of reads that have timed out. -/
theorem C63_server_partial {U : Responder υ} {S : Setup (Shore υ)} (hL : S.line = portLine U)
    (hE : ∀ a b, S.env a b → b.port = a.port) {w : World (Shore υ)} (hw : w.line.port = {})
    {s : Sys (Shore υ)} (h : Reachable S (Sys.initial w) s) :
    leftBehind s.sh.world.line.port = timeouts s.sh.trace := by
  have key := line_ind (S := S) (s₁ := Sys.initial w) (s₂ := s)
    (I := fun l tr => LeakInv l.port ∧ l.port.active = none ∧ leftBehind l.port = timeouts tr)
    ?_ ?_ ?_ ?_ h ?_
  · exact key.2.2
  · intro l tr t bs r l' ⟨h1, h2, h3⟩ hx
    rw [hL] at hx
    have := (write_port hx).1
    rw [this]
    exact ⟨h1, h2, by rw [h3, timeouts_append]; simp [timeouts]⟩
  · intro l tr t e q err l' ⟨h1, h2, h3⟩ hx
    rw [hL] at hx
    simp only [portLine, Prod.mk.injEq] at hx
    obtain ⟨hx1, rfl⟩ := hx
    obtain ⟨h4, h5, r, h6⟩ := query_leaks h1 h2 (queried l.last e) (U.hear l.last e l.unit).1
    refine ⟨h4, h5, ?_⟩
    simp only [h6, List.getLast?_append, List.getLast?_singleton, Option.some_or, Option.map_some,
      Option.getD_some] at hx1
    subst hx1
    rw [timeouts_append, ← h3, h4.1, h1.1]
    simp only [timedOut, h6, List.filter_append, List.length_append, Nat.add_left_cancel_iff, timeouts]
    simp only [List.filter_cons, List.filter_nil]
    by_cases hc : q = {} ∧ err = some .timeout
    · obtain ⟨rfl, rfl⟩ := hc; simp
    · have : ¬ ((q, err) = (({}, some .timeout) : Packet × Option Err)) := by simpa using hc
      have h' : ¬ (Go.ret q err = .ret {} (some .timeout)) := by simpa using hc
      simp [this, h']
  · intro l tr x hx hy ⟨h1, h2, h3⟩
    refine ⟨h1, h2, ?_⟩
    rw [h3, timeouts_append]
    obtain ⟨t, a⟩ := x
    have : timeouts [(t, a)] = 0 := by
      unfold timeouts
      cases a <;> first | rfl | exact absurd rfl (hy _ _)
    omega
  · intro l l' tr ⟨h1, h2, h3⟩ hx
    rw [hE _ _ hx]
    exact ⟨h1, h2, h3⟩
  · show LeakInv w.line.port ∧ w.line.port.active = none ∧ leftBehind w.line.port = 0
    rw [hw]
    exact ⟨⟨rfl, rfl⟩, rfl, rfl⟩

/-- The unit of the examples sleeps through two of three queries. -/
example :
    (Sys.execs (sleepySetup true) (flushBypass 0 8 ++ flushBypass 1 8 ++ flushBypass 2 8)
      (Sys.initial (sleepyStart [true, false, true]))).any (fun s =>
        decide (leftBehind s.sh.world.line.port = 2 ∧ timeouts s.sh.trace = 2)) = true := by
  decide +kernel

end Comfo.Props
