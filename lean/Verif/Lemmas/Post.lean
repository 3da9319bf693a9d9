import Verif.Lemmas.Setting
/-!
Helper lemmas: what holds of the actions and the result of every complete execution of a program,
whatever the other goroutines do.
-/
namespace Comfo
open Spec

/-- Every path of `p` to a result `a`, along actions `acts`, satisfies `P acts a`. -/
def Prog.Post : Prog α → (List Act → α → Prop) → Prop
  | ret a, P => P [] a
  | panic, _ => True
  | lock l k, P => k.Post fun as a => P (.lock l :: as) a
  | unlock l k, P => k.Post fun as a => P (.unlock l :: as) a
  | rlock l k, P => k.Post fun as a => P (.rlock l :: as) a
  | runlock l k, P => k.Post fun as a => P (.runlock l :: as) a
  | now k, P => ∀ t, (k t).Post fun as a => P (.now t :: as) a
  | sleep ns k, P => k.Post fun as a => P (.sleep ns :: as) a
  | write bs k, P => ∀ r, (k r).Post fun as a => P (.wrote bs r :: as) a
  | read e k, P => ∀ r, (k r).Post fun as a => P (.got e r :: as) a
  | load id k, P => ∀ c, (k c).Post fun as a => P (.load id c :: as) a
  | store id e k, P => k.Post fun as a => P (.store id e :: as) a
  | note id t k, P => k.Post fun as a => P (.note id t :: as) a
  | sendFlush t k, P => k.Post fun as a => P (.sendFlush t :: as) a
  | recvFlushed k, P => ∀ b, (k b).Post fun as a => P (.recvFlushed b :: as) a
  | sendFlushed b k, P => k.Post fun as a => P (.sendFlushed b :: as) a

theorem Prog.Post.mono {p : Prog α} {P Q : List Act → α → Prop} (h : p.Post P)
    (hpq : ∀ as a, P as a → Q as a) : p.Post Q := by
  induction p generalizing P Q with
  | ret a => exact hpq _ _ h
  | panic => trivial
  | lock l k ih => exact ih h fun as a h => hpq _ _ h
  | unlock l k ih => exact ih h fun as a h => hpq _ _ h
  | rlock l k ih => exact ih h fun as a h => hpq _ _ h
  | runlock l k ih => exact ih h fun as a h => hpq _ _ h
  | now k ih => exact fun t => ih t (h t) fun as a h => hpq _ _ h
  | sleep ns k ih => exact ih h fun as a h => hpq _ _ h
  | write bs k ih => exact fun t => ih t (h t) fun as a h => hpq _ _ h
  | read e k ih => exact fun t => ih t (h t) fun as a h => hpq _ _ h
  | load id k ih => exact fun t => ih t (h t) fun as a h => hpq _ _ h
  | store id e k ih => exact ih h fun as a h => hpq _ _ h
  | note id t k ih => exact ih h fun as a h => hpq _ _ h
  | sendFlush t k ih => exact ih h fun as a h => hpq _ _ h
  | recvFlushed k ih => exact fun t => ih t (h t) fun as a h => hpq _ _ h
  | sendFlushed b k ih => exact ih h fun as a h => hpq _ _ h

theorem Prog.Post.bind {p : Prog α} {f : α → Prog β} {P : List Act → β → Prop}
    (h : p.Post fun as a => (f a).Post fun bs b => P (as ++ bs) b) : (p.bind f).Post P := by
  induction p generalizing P with
  | ret a => exact h
  | panic => trivial
  | lock l k ih => exact ih h
  | unlock l k ih => exact ih h
  | rlock l k ih => exact ih h
  | runlock l k ih => exact ih h
  | now k ih => exact fun t => ih t (h t)
  | sleep ns k ih => exact ih h
  | write bs k ih => exact fun t => ih t (h t)
  | read e k ih => exact fun t => ih t (h t)
  | load id k ih => exact fun t => ih t (h t)
  | store id e k ih => exact ih h
  | note id t k ih => exact ih h
  | sendFlush t k ih => exact ih h
  | recvFlushed k ih => exact fun t => ih t (h t)
  | sendFlushed b k ih => exact ih h

theorem Prog.Post.map {p : Prog α} {f : α → β} {P : List Act → β → Prop}
    (h : p.Post fun as a => P as (f a)) : (p.map f).Post P :=
  Prog.Post.bind (h.mono fun as a h => by simpa [Prog.Post] using h)

/-- Sequencing with a known postcondition of the first part. -/
theorem Prog.Post.seq {p : Prog α} {f : α → Prog β} {P : List Act → β → Prop}
    {Q : List Act → α → Prop} (h : p.Post Q)
    (hf : ∀ as a, Q as a → (f a).Post fun bs b => P (as ++ bs) b) : (p.bind f).Post P :=
  Prog.Post.bind (h.mono hf)

theorem Prog.Post.path {p : Prog α} {P : List Act → α → Prop} {acts : List Act} {a : α}
    (h : p.Post P) (hp : Path p acts (.ret a)) : P acts a := by
  induction p generalizing acts P with
  | ret b =>
    rcases path_uncons hp with ⟨rfl, h0⟩ | ⟨a1, p1, acts1, rfl, h1, -⟩
    · cases h0; exact h
    · cases h1
  | panic =>
    rcases path_uncons hp with ⟨rfl, h0⟩ | ⟨a1, p1, acts1, rfl, h1, -⟩
    · cases h0
    · cases h1
  | _ =>
    rename_i ih
    rcases path_uncons hp with ⟨rfl, h0⟩ | ⟨a1, p1, acts1, rfl, h1, h2⟩
    · cases h0
    · cases h1
      simp only [Prog.Post] at h
      first
        | (have h3 := ih h h2; exact h3)
        | (have h3 := ih _ (h _) h2; exact h3)

theorem Prog.Post.answered {S : Setup σ} {w : World σ} {s : Sys σ} {c : Call}
    {P : List Act → Resp → Prop} (hP : (c.prog S.cv).Post P) (h : Reachable S (Sys.initial w) s)
    {i : Nat} {r : Resp} (ha : Answered s i c r) : P (actsOf (.client i) s.sh.trace) r := by
  obtain ⟨g, hi⟩ := inv1 h
  exact hP.path (hi.hist.path i _ ha).1

/-! ## The building blocks -/

/-- The actions of one query. -/
def QueryActs (cmd : UInt8) (data : List UInt8) (expect : Bool) (acts : List Act)
    (r : Packet × Option Err) : Prop :=
  ∃ evs, Transaction cmd data expect evs r ∧ acts = .lock .pm :: evs.map toAct ++ [.unlock .pm]

theorem post_query {p : Packet} (hp : p.data.length ≤ 255) :
    (queryPacketP p).Post (QueryActs p.command p.data p.expect) := by
  unfold queryPacketP
  rw [marshal_ok p hp]
  simp only [frame_eq, Prog.Post]
  rintro ⟨n, err⟩
  cases err with
  | some e => exact ⟨_, .writeFailed n e, rfl⟩
  | none =>
    simp only [Prog.Post]
    rintro ⟨out, err⟩
    cases err with
    | some e => exact ⟨_, .readFailed n out e, rfl⟩
    | none =>
      simp only
      split
      · rename_i hx
        exact ⟨_, .wrongReply n out hx.1 hx.2, rfl⟩
      · rename_i hx
        have hc : p.expect = true → out.command = p.command + 1 := fun h =>
          Classical.byContradiction fun h' => hx ⟨h, h'⟩
        simp only [Prog.Post]
        rintro ⟨m, err⟩
        cases err with
        | some e => exact ⟨_, .ackFailed n out m e hc, rfl⟩
        | none =>
          simp only [Prog.Post]
          split
          · rename_i hm
            exact ⟨_, .ackShort n out m hc hm, rfl⟩
          · rename_i hm
            have : m = 2 := Classical.not_not.mp hm
            subst this
            exact ⟨_, .complete n out hc, rfl⟩

/-- The actions of one set request. -/
def SetActs (inp : SetRequest) (acts : List Act) (e : Option Err) : Prop :=
  (∃ bin q, inp.marshalBinary = (bin, none) ∧ QueryActs inp.requestType bin false acts (q, e)) ∨
  (acts = [] ∧ ∃ bin e', inp.marshalBinary = (bin, some e') ∧ e = some e')

theorem marshalBinary_length {inp : SetRequest} {bin : List UInt8}
    (hm : inp.marshalBinary = (bin, none)) : bin.length ≤ 255 := by
  cases inp with
  | speed s => simp only [SetRequest.marshalBinary] at hm; split at hm <;> cases hm; simp
  | comfort t =>
    simp only [SetRequest.marshalBinary] at hm
    split at hm <;> cases hm
    simp
  | fanProfiles q => cases hm; simp

theorem post_set (inp : SetRequest) : (setQueryP inp).Post (SetActs inp) := by
  have h0 : inp.requestType ≠ 0 := by cases inp <;> simp [SetRequest.requestType]
  unfold setQueryP encodeSetRequest
  simp only [h0, if_false]
  match hm : inp.marshalBinary with
  | (bin, some e) => exact .inr ⟨rfl, bin, e, hm, rfl⟩
  | (bin, none) =>
    simp only
    refine (post_query (p := { command := inp.requestType, data := bin, expect := false })
      (marshalBinary_length hm)).seq fun as a h => ?_
    simp only [Prog.Post, List.append_nil]
    exact .inl ⟨bin, a.1, hm, h⟩

/-- The actions of one library getter. -/
def FetchActs (id : CacheId) (acts : List Act) (r : CVal id × Option Err) : Prop :=
  ∃ q e, QueryActs (requestCode id) [] true acts (q, e) ∧
    (r.2 = none ↔ e = none ∧ (decode id q.data).isSome) ∧
    (r.2 = none → decode id q.data = some r.1) ∧ (∀ e', e = some e' → r.2 = some e')

theorem post_getter {β : Type} {gr : GetRequest} {zero : β} {assert : Response → Option β}
    (unm : List UInt8 → Go β) (con : β → Response)
    (hd : ∀ pl, decodeResponse { command := gr.code + 1, data := pl } = (unm pl).map (some ∘ con))
    (hu : ∀ pl, unm pl ≠ .panic) (ha : ∀ b, assert (con b) = some b) :
    (getterP gr zero assert).Post fun acts r => ∃ q e, QueryActs gr.code [] true acts (q, e) ∧
      (r.2 = none ↔ e = none ∧ (okVal (unm q.data)).isSome) ∧
      (r.2 = none → okVal (unm q.data) = some r.1) ∧ (∀ e', e = some e' → r.2 = some e') := by
  unfold getterP
  refine (post_query (p := encodeGetRequest gr) (by simp [encodeGetRequest])).seq ?_
  rintro as ⟨q, e⟩ h
  replace h : QueryActs gr.code [] true as (q, e) := h
  cases e with
  | some e => exact ⟨q, some e, by simpa using h, by simp, by simp, fun e' h => h⟩
  | none =>
    obtain ⟨n, hc, -⟩ := transaction_ok h.choose_spec.1
    have hdq : decodeResponse q = (unm q.data).map (some ∘ con) := by
      rw [← hd]; unfold decodeResponse; rw [hc]
    simp only
    rw [hdq]
    match hu2 : unm q.data with
    | .panic => exact absurd hu2 (hu _)
    | .ret b (some e) => exact ⟨q, none, by simpa using h, by simp [hu2, okVal], by simp, by simp⟩
    | .ret b none =>
      simp only [Go.map, Function.comp, ha, Prog.Post, List.append_nil]
      exact ⟨q, none, h, by simp [hu2, okVal], by simp [hu2, okVal], by simp⟩

theorem post_fetch (id : CacheId) : id.fetch.Post (FetchActs id) := by
  cases id with
  | boot =>
    exact post_getter (gr := .bootloader) BootInfo.unmarshalBinary .bootInfo (fun _ => rfl)
      Props.bootInfo_ne_panic (fun _ => rfl)
  | bypass =>
    exact post_getter (gr := .bypass) Bypass.unmarshalBinary .bypass (fun _ => rfl)
      Props.bypass_ne_panic (fun _ => rfl)
  | temps =>
    exact post_getter (gr := .temps) Temps.unmarshalBinary .temps (fun _ => rfl)
      Props.temps_ne_panic (fun _ => rfl)
  | fans =>
    exact post_getter (gr := .fans) Fans.unmarshalBinary .fans (fun _ => rfl)
      Props.fans_ne_panic (fun _ => rfl)
  | profiles =>
    exact post_getter (gr := .fanProfiles) FanProfiles.unmarshalBinary .fanProfiles
      (fun _ => rfl) Props.profiles_ne_panic (fun _ => rfl)
  | errors =>
    exact post_getter (gr := .errors) Errors.unmarshalBinary .errors (fun _ => rfl)
      Props.errors_ne_panic (fun _ => rfl)

/-- The actions of a refresh that begins at `t`, after the decision to refresh. -/
def RefreshActs (id : CacheId) (t : Int) (acts : List Act) : Prop :=
  ∃ qa q e, QueryActs (requestCode id) [] true qa (q, e) ∧
    acts = .note id t :: qa ++
      (match outcome id q e with | some v => [.store id ⟨v, t⟩] | none => []) ++ [.unlock (.cache id)]

/-- The actions of a forced refresh. -/
def ForcedActs (id : CacheId) (acts : List Act) : Prop :=
  ∃ t ra, RefreshActs id t ra ∧ acts = .lock (.cache id) :: .now t :: ra

theorem post_refresh (id : CacheId) (t : Int) :
    (Prog.note id t <| id.fetch.bind fun (v, err) =>
      match err with
      | none => .store id { val := v, last := t } <| .unlock (.cache id) <| .ret ()
      | some _ => .unlock (.cache id) <| .ret ()).Post fun acts _ => RefreshActs id t acts := by
  simp only [Prog.Post]
  refine (post_fetch id).seq ?_
  rintro as ⟨v, e'⟩ ⟨q, e, h1, h2, h3, -⟩
  simp only at h2 h3
  cases e' with
  | none =>
    have hd := h3 rfl
    have he := (h2.1 rfl).1
    simp only [Prog.Post]
    exact ⟨as, q, e, h1, by simp [outcome, he, hd]⟩
  | some x =>
    have : outcome id q e = none := by
      unfold outcome
      cases e with
      | some _ => rfl
      | none =>
        cases hdd : decode id q.data with
        | none => rfl
        | some x => simp [hdd] at h2
    simp only [Prog.Post]
    exact ⟨as, q, e, h1, by simp [this]⟩

theorem post_forced (id : CacheId) : (update id true).Post fun acts _ => ForcedActs id acts := by
  unfold update
  simp only [Prog.Post, if_true]
  intro t
  have h := post_refresh id t
  simp only [Prog.Post] at h
  exact h.mono fun as _ h => ⟨t, _, h, rfl⟩

/-- The actions of polling, and its result. -/
inductive PollActs (a b : UInt8) : Nat → List Act → Option SrvErr → Prop
  | zero : PollActs a b 0 [] (some .pollFailed)
  | hit (n u) (f g : Entry Fans) : ForcedActs .fans u → f.val.inPercent = a → g.val.outPercent = b →
    PollActs a b (n + 1) (u ++ [.load .fans f, .load .fans g]) none
  | missIn (n u rest res) (f : Entry Fans) : ForcedActs .fans u → f.val.inPercent ≠ a →
    PollActs a b n rest res →
    PollActs a b (n + 1) (u ++ .load .fans f :: .sleep 500000000 :: rest) res
  | missOut (n u rest res) (f g : Entry Fans) : ForcedActs .fans u → f.val.inPercent = a →
    g.val.outPercent ≠ b → PollActs a b n rest res →
    PollActs a b (n + 1) (u ++ .load .fans f :: .load .fans g :: .sleep 500000000 :: rest) res

theorem post_poll (a b : UInt8) (n : Nat) : (pollLoop a b n).Post (PollActs a b n) := by
  induction n with
  | zero => exact .zero
  | succ n ih =>
    unfold pollLoop
    refine (post_forced .fans).seq fun u _ hu => ?_
    simp only [Prog.Post]
    intro f
    split
    · rename_i hf
      simp only [Prog.Post]
      intro g
      split
      · rename_i hg
        exact .hit n u f g hu hf hg
      · rename_i hg
        simp only [Prog.Post]
        exact ih.mono fun as r h => .missOut n u as r f g hu hf hg h
    · rename_i hf
      simp only [Prog.Post]
      exact ih.mono fun as r h => .missIn n u as r f hu hf h

/-- The actions of a `SetFanSpeed` request, and its answer. -/
inductive SpeedActs (abs : UInt32) (rel : Bool) : List Act → Rpc SpeedModified → Prop
  | rejected (t : Int) (c : Entry FanProfiles) (b : UInt8) (e : Twirp) :
    modifySpeed c.val.currentMode abs rel = (b, some e) →
    SpeedActs abs rel [.now t, .lock .fan, .load .profiles c, .unlock .fan] (.err e)
  | same (t : Int) (c : Entry FanProfiles) (stop : Int) :
    modifySpeed c.val.currentMode abs rel = (c.val.currentMode, none) →
    SpeedActs abs rel [.now t, .lock .fan, .load .profiles c, .now stop, .unlock .fan]
      (.ok ⟨false, c.val.currentMode.toUInt32, c.val.currentMode.toUInt32, timeSub stop t⟩)
  | setFailed (t : Int) (c : Entry FanProfiles) (m : UInt8) (sa : List Act) (e : Err) :
    modifySpeed c.val.currentMode abs rel = (m, none) → m ≠ c.val.currentMode →
    SetActs (.speed m) sa (some e) →
    SpeedActs abs rel (.now t :: .lock .fan :: .load .profiles c :: (sa ++ [.unlock .fan]))
      (.err (.internal (.lib e)))
  | noTarget (t : Int) (c : Entry FanProfiles) (m : UInt8) (sa : List Act) (p : Entry FanProfiles)
    (e : Err) :
    modifySpeed c.val.currentMode abs rel = (m, none) → m ≠ c.val.currentMode →
    SetActs (.speed m) sa none → (p.val.lookup m).2 = some e →
    SpeedActs abs rel (.now t :: .lock .fan :: .load .profiles c ::
        (sa ++ [.rlock (.cache .profiles), .load .profiles p, .unlock .fan]))
      (.err (.internal (.lib e)))
  | pollFailed (t : Int) (c : Entry FanProfiles) (m : UInt8) (sa : List Act) (p : Entry FanProfiles)
    (x y : UInt8) (pa : List Act) (e : SrvErr) :
    modifySpeed c.val.currentMode abs rel = (m, none) → m ≠ c.val.currentMode →
    SetActs (.speed m) sa none → p.val.lookup m = ((x, y), none) → PollActs x y 10 pa (some e) →
    SpeedActs abs rel (.now t :: .lock .fan :: .load .profiles c ::
        (sa ++ .rlock (.cache .profiles) :: .load .profiles p :: .runlock (.cache .profiles) ::
          (pa ++ [.unlock .fan])))
      (.err (.internal e))
  | set (t : Int) (c : Entry FanProfiles) (m : UInt8) (sa : List Act) (p : Entry FanProfiles)
    (x y : UInt8) (pa u : List Act) (stop : Int) :
    modifySpeed c.val.currentMode abs rel = (m, none) → m ≠ c.val.currentMode →
    SetActs (.speed m) sa none → p.val.lookup m = ((x, y), none) → PollActs x y 10 pa none →
    ForcedActs .profiles u →
    SpeedActs abs rel (.now t :: .lock .fan :: .load .profiles c ::
        (sa ++ .rlock (.cache .profiles) :: .load .profiles p :: .runlock (.cache .profiles) ::
          (pa ++ u ++ [.now stop, .unlock .fan])))
      (.ok ⟨true, c.val.currentMode.toUInt32, m.toUInt32, timeSub stop t⟩)

theorem post_setFanSpeed (abs : UInt32) (rel : Bool) :
    (setFanSpeed abs rel).Post (SpeedActs abs rel) := by
  unfold setFanSpeed
  simp only [Prog.Post]
  intro t (c : Entry FanProfiles)
  match hm : modifySpeed c.val.currentMode abs rel with
  | (b, some e) =>
    simp only [hm, Prog.Post]
    exact .rejected t c b e hm
  | (m, none) =>
    simp only [hm]
    split
    · rename_i hne
      refine (post_set (.speed m)).seq fun sa err hs => ?_
      cases err with
      | some e =>
        simp only [Prog.Post]
        exact .setFailed t c m sa e hm hne hs
      | none =>
        simp only
        refine Prog.Post.bind ?_
        unfold updatePoll
        simp only [Prog.Post]
        intro (p : Entry FanProfiles)
        match hl : p.val.lookup m with
        | (_, some e) =>
          simp only [hl, Prog.Post]
          exact .noTarget t c m sa p e hm hne hs (by rw [hl])
        | ((x, y), none) =>
          simp only [hl, Prog.Post]
          refine (post_poll x y 10).mono fun pa err hp => ?_
          cases err with
          | some e =>
            simp only [Prog.Post]
            exact .pollFailed t c m sa p x y pa e hm hne hs hl hp
          | none =>
            simp only
            refine (post_forced .profiles).seq fun u _ hu => ?_
            simp only [Prog.Post]
            intro stop
            have := SpeedActs.set t c m sa p x y pa u stop hm hne hs hl hp hu
            simpa using this
    · rename_i hne
      have he : m = c.val.currentMode := Classical.not_not.mp hne
      subst he
      simp only [Prog.Post]
      intro stop
      exact .same t c stop hm

/-- The actions of a `SetComfortTemp` request, and its answer. -/
inductive ComfortActs (cv : FloatConv) (x : UInt32) : List Act → Rpc ComfortModified → Prop
  | rejected (t : Int) (c : Entry Temps) : x > 255 →
    ComfortActs cv x [.now t, .load .temps c] (.err (.invalidArgument .tempTooLarge))
  | same (t : Int) (c : Entry Temps) (stop : Int) : ¬ x > 255 → cv.u8 c.val.comfort = x.toUInt8 →
    ComfortActs cv x [.now t, .load .temps c, .now stop]
      (.ok ⟨false, cv.u32 c.val.comfort, x, timeSub stop t⟩)
  | setFailed (t : Int) (c : Entry Temps) (sa : List Act) (e : Err) : ¬ x > 255 →
    cv.u8 c.val.comfort ≠ x.toUInt8 → SetActs (.comfort (x.toUInt8.toNat : Int)) sa (some e) →
    ComfortActs cv x (.now t :: .load .temps c :: .lock .temp :: (sa ++ [.unlock .temp]))
      (.err (.internal (.lib e)))
  | set (t : Int) (c : Entry Temps) (sa u : List Act) (stop : Int) : ¬ x > 255 →
    cv.u8 c.val.comfort ≠ x.toUInt8 → SetActs (.comfort (x.toUInt8.toNat : Int)) sa none →
    ForcedActs .temps u →
    ComfortActs cv x
      (.now t :: .load .temps c :: .lock .temp :: (sa ++ u ++ [.now stop, .unlock .temp]))
      (.ok ⟨true, cv.u32 c.val.comfort, x, timeSub stop t⟩)

theorem post_setComfortTemp (cv : FloatConv) (x : UInt32) :
    (setComfortTemp cv x).Post (ComfortActs cv x) := by
  unfold setComfortTemp
  simp only [Prog.Post]
  intro t (c : Entry Temps)
  split
  · rename_i hx
    exact .rejected t c hx
  · rename_i hx
    split
    · rename_i hne
      simp only [Prog.Post]
      refine (post_set _).seq fun sa err hs => ?_
      cases err with
      | some e =>
        simp only [Prog.Post]
        exact .setFailed t c sa e hx hne hs
      | none =>
        simp only
        refine (post_forced .temps).seq fun u _ hu => ?_
        simp only [Prog.Post]
        intro stop
        have := ComfortActs.set t c sa u stop hx hne hs hu
        simpa using this
    · rename_i hne
      simp only [Prog.Post]
      intro stop
      exact .same t c stop hx (Classical.not_not.mp hne)

/-- The actions of the library's `SetFanProfile`, and its result. -/
inductive ProfileActs (mode speed : UInt8) : List Act → Option Err → Prop
  | badMode : mode > 3 → ProfileActs mode speed [] (some .unknownMode)
  | badSpeed : ¬ mode > 3 → speed > 100 → ProfileActs mode speed [] (some .tooHigh)
  | getFailed (fa : List Act) (v : FanProfiles) (e : Err) : ¬ mode > 3 → ¬ speed > 100 →
    FetchActs .profiles fa (v, some e) →
    ProfileActs mode speed (.lock .am :: (fa ++ [.unlock .am])) (some e)
  | set (fa sa : List Act) (v : FanProfiles) (e : Option Err) : ¬ mode > 3 → ¬ speed > 100 →
    FetchActs .profiles fa (v, none) → SetActs (.fanProfiles (patchProfile mode speed v)) sa e →
    ProfileActs mode speed (.lock .am :: (fa ++ sa ++ [.unlock .am])) e

theorem post_setFanProfileP (mode speed : UInt8) :
    (setFanProfileP mode speed).Post (ProfileActs mode speed) := by
  unfold setFanProfileP
  split
  · rename_i h1
    exact .badMode h1
  · rename_i h1
    split
    · rename_i h2
      exact .badSpeed h1 h2
    · rename_i h2
      simp only [Prog.Post]
      refine Prog.Post.seq (post_fetch .profiles) ?_
      rintro fa ⟨v, err⟩ hf
      cases err with
      | some e =>
        simp only [Prog.Post]
        exact .getFailed fa v e h1 h2 hf
      | none =>
        simp only
        refine (post_set _).seq fun sa err hs => ?_
        simp only [Prog.Post]
        have := ProfileActs.set fa sa v err h1 h2 hf hs
        simpa using this

/-- The in-percentage of a mode, counted from 0. -/
def inOf (p : FanProfiles) (mode : UInt8) : UInt8 :=
  if mode = 0 then p.inAway else if mode = 1 then p.inLow else if mode = 2 then p.inMid else p.inHigh

/-- The actions of a `SetFanProfile` request, and its answer. -/
inductive ProfileRpcActs (m x : UInt32) : List Act → Rpc SpeedModified → Prop
  | badMode (t : Int) : m.toUInt8 < 1 ∨ m.toUInt8 > 4 →
    ProfileRpcActs m x [.now t] (.err (.invalidArgument .modeRange))
  | badSpeed (t : Int) : ¬ (m.toUInt8 < 1 ∨ m.toUInt8 > 4) → x.toUInt8 < 15 ∨ x.toUInt8 > 100 →
    ProfileRpcActs m x [.now t] (.err (.invalidArgument .targetRange))
  | same (t : Int) (c : Entry FanProfiles) (stop : Int) : ¬ (m.toUInt8 < 1 ∨ m.toUInt8 > 4) →
    ¬ (x.toUInt8 < 15 ∨ x.toUInt8 > 100) → inOf c.val (m.toUInt8 - 1) = x.toUInt8 →
    ProfileRpcActs m x [.now t, .lock .fan, .load .profiles c, .now stop, .unlock .fan]
      (.ok ⟨false, (inOf c.val (m.toUInt8 - 1)).toUInt32, x, timeSub stop t⟩)
  | setFailed (t : Int) (c : Entry FanProfiles) (sa : List Act) (e : Err) :
    ¬ (m.toUInt8 < 1 ∨ m.toUInt8 > 4) → ¬ (x.toUInt8 < 15 ∨ x.toUInt8 > 100) →
    inOf c.val (m.toUInt8 - 1) ≠ x.toUInt8 → ProfileActs (m.toUInt8 - 1) x.toUInt8 sa (some e) →
    ProfileRpcActs m x (.now t :: .lock .fan :: .load .profiles c :: (sa ++ [.unlock .fan]))
      (.err (.internal (.lib e)))
  | set (t : Int) (c : Entry FanProfiles) (sa u : List Act) (stop : Int) :
    ¬ (m.toUInt8 < 1 ∨ m.toUInt8 > 4) → ¬ (x.toUInt8 < 15 ∨ x.toUInt8 > 100) →
    inOf c.val (m.toUInt8 - 1) ≠ x.toUInt8 → ProfileActs (m.toUInt8 - 1) x.toUInt8 sa none →
    ForcedActs .profiles u →
    ProfileRpcActs m x
      (.now t :: .lock .fan :: .load .profiles c :: (sa ++ u ++ [.now stop, .unlock .fan]))
      (.ok ⟨true, (inOf c.val (m.toUInt8 - 1)).toUInt32, x, timeSub stop t⟩)

theorem post_setFanProfileRpc (m x : UInt32) :
    (setFanProfileRpc m x).Post (ProfileRpcActs m x) := by
  unfold setFanProfileRpc
  simp only [Prog.Post]
  intro t
  split
  · rename_i h1
    exact .badMode t h1
  · rename_i h1
    split
    · rename_i h2
      exact .badSpeed t h1 h2
    · rename_i h2
      simp only [Prog.Post]
      have key : ∀ (c : Entry FanProfiles),
          (if inOf c.val (m.toUInt8 - 1) ≠ x.toUInt8 then
            (setFanProfileP (m.toUInt8 - 1) x.toUInt8).bind fun err =>
            match err with
            | some e => .unlock .fan <| .ret (Rpc.err (.internal (.lib e)))
            | none =>
              (update .profiles true).bind fun _ =>
              .now fun stop => .unlock .fan <| .ret (Rpc.ok (SpeedModified.mk true
                (inOf c.val (m.toUInt8 - 1)).toUInt32 x (timeSub stop t)))
          else .now fun stop => .unlock .fan <| .ret (Rpc.ok (SpeedModified.mk false
                (inOf c.val (m.toUInt8 - 1)).toUInt32 x (timeSub stop t)))).Post
            fun as r => ProfileRpcActs m x (.now t :: .lock .fan :: .load .profiles c :: as) r := by
        intro c
        split
        · rename_i hne
          refine (post_setFanProfileP _ _).seq fun sa err hs => ?_
          cases err with
          | some e =>
            simp only [Prog.Post]
            exact .setFailed t c sa e h1 h2 hne hs
          | none =>
            simp only
            refine (post_forced .profiles).seq fun u _ hu => ?_
            simp only [Prog.Post]
            intro stop
            have := ProfileRpcActs.set t c sa u stop h1 h2 hne hs hu
            simpa using this
        · rename_i hne
          simp only [Prog.Post]
          intro stop
          exact .same t c stop h1 h2 (Classical.not_not.mp hne)
      split
      · rename_i h3
        simp only [Prog.Post]
        intro (c : Entry FanProfiles)
        have := key c
        rwa [show inOf c.val (m.toUInt8 - 1) = c.val.inAway by simp [inOf, h3]] at this
      · rename_i h3
        split
        · rename_i h4
          simp only [Prog.Post]
          intro (c : Entry FanProfiles)
          have := key c
          rwa [show inOf c.val (m.toUInt8 - 1) = c.val.inLow by simp [inOf, h3, h4]] at this
        · rename_i h4
          split
          · rename_i h5
            simp only [Prog.Post]
            intro (c : Entry FanProfiles)
            have := key c
            rwa [show inOf c.val (m.toUInt8 - 1) = c.val.inMid by simp [inOf, h3, h4, h5]] at this
          · rename_i h5
            split
            · rename_i h6
              simp only [Prog.Post]
              intro (c : Entry FanProfiles)
              have := key c
              rwa [show inOf c.val (m.toUInt8 - 1) = c.val.inHigh by simp [inOf, h3, h4, h5, h6]] at this
            · simp only [Prog.Post]

end Comfo
