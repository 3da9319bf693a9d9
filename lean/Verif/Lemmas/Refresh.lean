import Verif.Lemmas.Turn
import Verif.Lemmas.Neutral
import Verif.Spec.Prompt
/-!
Helper lemmas: a request that uses a cache is a Get request for it, or holds the lock of the fans or
that of the temperatures.
-/
namespace Comfo
open Spec

/-- Ghost state: the outer lock is held; the lock of a cache that is held; the mutex of the library is
held. -/
structure G9 where
  out : Bool := false
  at' : Option (CacheId × Bool) := none
  lib : Bool := false

/-- `own`: the cache a Get request reads; `tc`: the caches a request refreshes. -/
def must9 (k : Option Lock) (own tc : CacheId → Prop) (g : G9) : Act → Prop
  | .lock (.cache j) | .rlock (.cache j) => g.at' = none ∧ (own j ∨ tc j ∧ g.out = true)
  | .unlock (.cache j) => g.at' = some (j, true)
  | .runlock (.cache j) => g.at' = some (j, false)
  | .lock .fan => k = some .fan
  | .lock .temp => k = some .temp
  | .unlock .fan | .unlock .temp => g.at' = none ∧ g.lib = false
  | .lock .am => k = some .fan ∧ g.out = true
  | .rlock .am | .rlock .fan | .rlock .temp => False
  | _ => True

def post9 (g : G9) : Act → G9
  | .lock (.cache j) => { g with at' := some (j, true) }
  | .rlock (.cache j) => { g with at' := some (j, false) }
  | .unlock (.cache _) | .runlock (.cache _) => { g with at' := none }
  | .lock .fan | .lock .temp => { g with out := true }
  | .unlock .fan | .unlock .temp => { g with out := false }
  | .lock .am => { g with lib := true }
  | .unlock .am => { g with lib := false }
  | _ => g

def R9 (k : Option Lock) (own tc : CacheId → Prop) : Rules G9 where
  must := must9 k own tc
  post := post9

variable {k : Option Lock} {own tc : CacheId → Prop}

theorem r9_query {g : G9} {Q : G9 → Packet × Option Err → Prop} (p : Packet)
    (hQ : ∀ q e, (e = none → p.expect = true → q.command = p.command + 1) → Q g (q, e)) :
    (queryPacketP p).Ok (R9 k own tc) Q g := by
  unfold queryPacketP
  refine fun _ => ⟨trivial, ?_⟩
  show Prog.Ok (R9 k own tc) Q _ g
  split
  · exact fun _ => ⟨trivial, hQ _ _ (by simp)⟩
  · rintro ⟨n, err⟩ -
    refine ⟨trivial, ?_⟩
    show Prog.Ok (R9 k own tc) Q _ g
    cases err with
    | some e => exact fun _ => ⟨trivial, hQ _ _ (by simp)⟩
    | none =>
      rintro ⟨q, err⟩ -
      refine ⟨trivial, ?_⟩
      show Prog.Ok (R9 k own tc) Q _ g
      cases err with
      | some e => exact fun _ => ⟨trivial, hQ _ _ (by simp)⟩
      | none =>
        by_cases hc : p.expect = true ∧ q.command ≠ p.command + 1
        · simp only [if_pos hc]
          exact fun _ => ⟨trivial, hQ _ _ (by simp)⟩
        · have hc' : p.expect = true → q.command = p.command + 1 := by
            intro h
            by_cases h2 : q.command = p.command + 1
            · exact h2
            · exact absurd ⟨h, h2⟩ hc
          simp only [if_neg hc]
          rintro ⟨m, err⟩ -
          refine ⟨trivial, ?_⟩
          show Prog.Ok (R9 k own tc) Q _ g
          cases err with
          | some e => exact fun _ => ⟨trivial, hQ _ _ (by simp)⟩
          | none => exact fun _ => ⟨trivial, hQ _ _ fun _ => hc'⟩

theorem r9_setQuery {g : G9} {Q : G9 → Option Err → Prop} (inp : SetRequest) (hQ : ∀ r, Q g r) :
    (setQueryP inp).Ok (R9 k own tc) Q g := by
  unfold setQueryP
  split
  · exact hQ _
  · exact ok_bind (r9_query _ fun _ _ _ => hQ _)

theorem r9_fetch {g : G9} {id : CacheId} {Q : G9 → CVal id × Option Err → Prop}
    (hQ : ∀ r, Q g r) : id.fetch.Ok (R9 k own tc) Q g :=
  ok_fetch id (r9_query _ fun _ _ h => ⟨fun he => h he rfl, fun _ _ _ _ => hQ _⟩)

theorem r9_update {Q : G9 → Unit → Prop} {id : CacheId} (ht : tc id) (force : Bool)
    (hQ : Q ⟨true, none, false⟩ ()) : (update id force).Ok (R9 k own tc) Q ⟨true, none, false⟩ := by
  have hu : (Prog.unlock (.cache id) (.ret ())).Ok (R9 k own tc) Q ⟨true, some (id, true), false⟩ :=
    fun _ => ⟨rfl, hQ⟩
  have refresh : ∀ now, (Prog.note id now <| id.fetch.bind fun (v, err) =>
      match err with
      | none => .store id { val := v, last := now } <| .unlock (.cache id) <| .ret ()
      | some _ => .unlock (.cache id) <| .ret ()).Ok (R9 k own tc) Q ⟨true, some (id, true), false⟩ := by
    intro now _
    refine ⟨trivial, ok_bind (r9_fetch ?_)⟩
    rintro ⟨v, e⟩
    cases e with
    | none => exact fun _ => ⟨trivial, hu⟩
    | some _ => exact hu
  unfold update
  refine fun _ => ⟨⟨rfl, .inr ⟨ht, rfl⟩⟩, fun now _ => ⟨trivial, ?_⟩⟩
  show Prog.Ok (R9 k own tc) Q _ ⟨true, some (id, true), false⟩
  cases force with
  | true => exact refresh now
  | false =>
    refine fun c _ => ⟨trivial, ?_⟩
    show Prog.Ok (R9 k own tc) Q _ ⟨true, some (id, true), false⟩
    by_cases hs : (!isStale c.last now) = true
    · simp only [hs, if_true]; exact hu
    · simp only [hs]; exact refresh now

theorem r9_setComfortTemp (ht : tc .temps) {cv : FloatConv} {v : UInt32} :
    (setComfortTemp cv v).Ok (R9 (some .temp) own tc) (fun _ _ => True) ⟨false, none, false⟩ := by
  unfold setComfortTemp
  refine fun start _ => ⟨trivial, fun (c : Entry Temps) _ => ⟨trivial, ?_⟩⟩
  show Prog.Ok (R9 (some .temp) own tc) _ (if v > 255 then _ else _) ⟨false, none, false⟩
  split
  · trivial
  · split
    · refine fun _ => ⟨rfl, ok_bind (r9_setQuery _ ?_)⟩
      intro err
      cases err with
      | some e => exact fun _ => ⟨⟨rfl, rfl⟩, trivial⟩
      | none => exact ok_bind (r9_update ht _ fun stop _ => ⟨trivial, fun _ => ⟨⟨rfl, rfl⟩, trivial⟩⟩)
    · exact fun stop _ => ⟨trivial, trivial⟩

theorem r9_pollLoop (hf : tc .fans) {Q : G9 → Option SrvErr → Prop} {a b : UInt8} {n : Nat}
    (hQ : ∀ r, Q ⟨true, none, false⟩ r) : (pollLoop a b n).Ok (R9 k own tc) Q ⟨true, none, false⟩ := by
  induction n with
  | zero => exact hQ _
  | succ n ih =>
    refine ok_bind (r9_update hf _ fun (c : Entry Fans) _ => ⟨trivial, ?_⟩)
    show Prog.Ok (R9 k own tc) Q (if c.val.inPercent = a then _ else _) ⟨true, none, false⟩
    split
    · refine fun (c : Entry Fans) _ => ⟨trivial, ?_⟩
      show Prog.Ok (R9 k own tc) Q (if c.val.outPercent = b then _ else _) ⟨true, none, false⟩
      split
      · exact hQ _
      · exact fun _ => ⟨trivial, ih⟩
    · exact fun _ => ⟨trivial, ih⟩

theorem r9_updatePoll (hf : tc .fans) (hp : tc .profiles) {Q : G9 → Option SrvErr → Prop} {n : Nat}
    {tgt : UInt8} (h1 : 1 ≤ tgt.toNat) (h4 : tgt.toNat ≤ 4)
    (hQ : ∀ r, Q ⟨true, none, false⟩ r) : (updatePoll n tgt).Ok (R9 k own tc) Q ⟨true, none, false⟩ := by
  have e : updatePoll n tgt = (Prog.rlock (.cache .profiles) <|
      .load .profiles fun (c : Entry FanProfiles) => .runlock (.cache .profiles) <|
      pollLoop (Props.profileOf c.val tgt.toNat).1 (Props.profileOf c.val tgt.toNat).2 n) := by
    unfold updatePoll
    congr 2
    funext (c : Entry FanProfiles)
    show (match FanProfiles.lookup c.val tgt with
      | (_, some e) => Prog.ret (some (SrvErr.lib e))
      | ((inPct, outPct), none) => _) = _
    rw [Props.lookup_ok _ h1 h4]
  rw [e]
  exact fun _ => ⟨⟨rfl, .inr ⟨hp, rfl⟩⟩, fun c _ => ⟨trivial, fun _ => ⟨rfl, r9_pollLoop hf hQ⟩⟩⟩

theorem r9_setFanSpeed (hf : tc .fans) (hp : tc .profiles) {abs : UInt32} {rel : Bool} :
    (setFanSpeed abs rel).Ok (R9 (some .fan) own tc) (fun _ _ => True) ⟨false, none, false⟩ := by
  unfold setFanSpeed
  refine fun start _ => ⟨trivial, fun _ => ⟨rfl, fun c _ => ⟨trivial, ?_⟩⟩⟩
  show Prog.Ok (R9 (some .fan) own tc) _ _ ⟨true, none, false⟩
  simp only
  match hm : modifySpeed c.val.currentMode abs rel with
  | (_, some e) => exact fun _ => ⟨⟨rfl, rfl⟩, trivial⟩
  | (tgt, none) =>
    obtain ⟨h1, h4⟩ := modifySpeed_range hm
    simp only
    split
    · refine ok_bind (r9_setQuery _ ?_)
      intro err
      cases err with
      | some e => exact fun _ => ⟨⟨rfl, rfl⟩, trivial⟩
      | none =>
        refine ok_bind (r9_updatePoll hf hp h1 h4 ?_)
        intro err
        cases err with
        | some e => exact fun _ => ⟨⟨rfl, rfl⟩, trivial⟩
        | none => exact ok_bind (r9_update hp _ fun stop _ => ⟨trivial, fun _ => ⟨⟨rfl, rfl⟩, trivial⟩⟩)
    · exact fun stop _ => ⟨trivial, fun _ => ⟨⟨rfl, rfl⟩, trivial⟩⟩

theorem r9_setFanProfile {Q : G9 → Option Err → Prop} {m s : UInt8}
    (hQ : ∀ r, Q ⟨true, none, false⟩ r) : (setFanProfileP m s).Ok (R9 (some .fan) own tc) Q ⟨true, none, false⟩ := by
  unfold setFanProfileP
  split
  · exact hQ _
  split
  · exact hQ _
  refine fun _ => ⟨⟨rfl, rfl⟩, ok_bind (r9_fetch (id := .profiles) ?_)⟩
  rintro ⟨v, err⟩
  cases err with
  | some e => exact fun _ => ⟨trivial, hQ _⟩
  | none => exact ok_bind (r9_setQuery _ fun e => fun _ => ⟨trivial, hQ _⟩)

theorem r9_setFanProfileRpc (hp : tc .profiles) {m t : UInt32} :
    (setFanProfileRpc m t).Ok (R9 (some .fan) own tc) (fun _ _ => True) ⟨false, none, false⟩ := by
  unfold setFanProfileRpc
  refine fun start _ => ⟨trivial, ?_⟩
  show Prog.Ok (R9 (some .fan) own tc) _ _ ⟨false, none, false⟩
  simp only
  split
  · trivial
  · rename_i hm
    split
    · trivial
    · refine fun _ => ⟨rfl, ?_⟩
      have cont : ∀ o : UInt8, (if o ≠ t.toUInt8 then
          (setFanProfileP (m.toUInt8 - 1) t.toUInt8).bind fun err =>
          match err with
          | some e => .unlock .fan <| .ret (.err (.internal (.lib e)))
          | none =>
            (update .profiles true).bind fun _ =>
            .now fun stop => .unlock .fan <| .ret (Rpc.ok
              { modified := true, originalSpeed := o.toUInt32, targetSpeed := t,
                reqTime := timeSub stop start : SpeedModified })
        else .now fun stop => .unlock .fan <| .ret (Rpc.ok
              { modified := false, originalSpeed := o.toUInt32, targetSpeed := t,
                reqTime := timeSub stop start : SpeedModified })).Ok (R9 (some .fan) own tc) (fun _ _ => True)
          ⟨true, none, false⟩ := by
        intro o
        split
        · refine ok_bind (r9_setFanProfile ?_)
          intro e
          cases e with
          | some e => exact fun _ => ⟨⟨rfl, rfl⟩, trivial⟩
          | none => exact ok_bind (r9_update hp _ fun stop _ => ⟨trivial, fun _ => ⟨⟨rfl, rfl⟩, trivial⟩⟩)
        · exact fun stop _ => ⟨trivial, fun _ => ⟨⟨rfl, rfl⟩, trivial⟩⟩
      rcases mode_cases hm with h | h | h | h
      · simp only [h, if_true]
        rw [h] at cont
        exact fun c _ => ⟨trivial, cont c.val.inAway⟩
      · simp only [h]
        rw [h] at cont
        exact fun c _ => ⟨trivial, cont c.val.inLow⟩
      · simp only [h]
        rw [h] at cont
        exact fun c _ => ⟨trivial, cont c.val.inMid⟩
      · simp only [h]
        rw [h] at cont
        exact fun c _ => ⟨trivial, cont c.val.inHigh⟩

theorem r9_protobuf {β : Type} {id : CacheId} (ho : own id) (conv : CVal id → β) (Q : G9 → Rpc β → Prop)
    (hQ : ∀ r, Q ⟨false, none, false⟩ r) : (protobuf id conv).Ok (R9 k own tc) Q ⟨false, none, false⟩ :=
  fun _ => ⟨⟨rfl, .inl ho⟩, fun _ _ => ⟨trivial, fun _ => ⟨rfl, hQ _⟩⟩⟩

theorem r9_call (cv : FloatConv) {c : Call} (hc : OnServer c) :
    (c.prog cv).Ok (R9 (outer c) (fun id => c = getCall id) (touches c)) (fun _ _ => True) ⟨false, none, false⟩ := by
  cases c with
  | getBoot => exact ok_map (r9_protobuf (by rfl) _ _ fun _ => trivial)
  | getBypass => exact ok_map (r9_protobuf (by rfl) _ _ fun _ => trivial)
  | getErrors => exact ok_map (r9_protobuf (by rfl) _ _ fun _ => trivial)
  | getFans => exact ok_map (r9_protobuf (by rfl) _ _ fun _ => trivial)
  | getProfiles => exact ok_map (r9_protobuf (by rfl) _ _ fun _ => trivial)
  | getTemps => exact ok_map (r9_protobuf (by rfl) _ _ fun _ => trivial)
  | setComfort v => exact ok_map (ok_mono (r9_setComfortTemp (by rfl)) fun _ _ _ => trivial)
  | setSpeed a r => exact ok_map (ok_mono (r9_setFanSpeed (by exact .inl rfl) (by exact .inr rfl)) fun _ _ _ => trivial)
  | setProfile m t => exact ok_map (ok_mono (r9_setFanProfileRpc (by rfl)) fun _ _ _ => trivial)
  | flush t =>
    exact ok_map fun _ _ => ⟨trivial, fun _ => ⟨trivial, fun _ _ => ⟨trivial, fun _ _ =>
      ⟨trivial, trivial⟩⟩⟩⟩
  | _ => exact absurd hc id

/-- What the two ghost states have to do with each other. -/
structure Link9 (k : Option Lock) (own tc : CacheId → Prop) (g : G9) (h : G1) : Prop where
  out : g.out = true → ∃ l, k = some l ∧ (l = .fan ∨ l = .temp) ∧ (l, true) ∈ h.held
  cache : ∀ j b, (.cache j, b) ∈ h.held → g.at' = some (j, b)
  inner : ∀ j b, g.at' = some (j, b) → own j ∨ tc j ∧ g.out = true

theorem link9_post {g : G9} {h : G1} {a : Act} (hl : Link9 k own tc g h) (hm : must9 k own tc g a) :
    Link9 k own tc (post9 g a) (post1 h a) := by
  obtain ⟨h1, h2, h3⟩ := hl
  have keep : ∀ {b l'}, (b = false ∨ l' ≠ .fan ∧ l' ≠ .temp) → ∀ l, (l = Lock.fan ∨ l = .temp) → (l, true) ∈ h.held →
      (l, true) ∈ h.held.filter (· ≠ (l', b)) := by
    rintro b l' hb l hl hm
    refine List.mem_filter.2 ⟨hm, ?_⟩
    rcases hb with rfl | ⟨x, y⟩
    · simp
    · rcases hl with rfl | rfl
      · simp [x.symm]
      · simp [y.symm]
  cases a with
  | lock l =>
    have more : ∀ {x}, x ∈ h.held → x ∈ (post1 h (.lock l)).held := fun h => by simp [post1, G1.push, h]
    have out' : g.out = true → ∃ l', k = some l' ∧ (l' = .fan ∨ l' = .temp) ∧
        (l', true) ∈ (post1 h (.lock l)).held := fun h => by
      obtain ⟨l, e, e2, e3⟩ := h1 h
      exact ⟨l, e, e2, more e3⟩
    cases l with
    | fan =>
      refine ⟨fun _ => ⟨.fan, hm, .inl rfl, by simp [post1, G1.push]⟩, fun j b h => ?_, fun j b h => ?_⟩
      · exact h2 j b (by simpa [post1, G1.push] using h)
      · exact (h3 j b h).imp_right fun h => ⟨h.1, rfl⟩
    | temp =>
      refine ⟨fun _ => ⟨.temp, hm, .inr rfl, by simp [post1, G1.push]⟩, fun j b h => ?_, fun j b h => ?_⟩
      · exact h2 j b (by simpa [post1, G1.push] using h)
      · exact (h3 j b h).imp_right fun h => ⟨h.1, rfl⟩
    | pm => exact ⟨out', fun j b h => h2 j b (by simpa [post1, G1.push] using h), h3⟩
    | am => exact ⟨out', fun j b h => h2 j b (by simpa [post1, G1.push] using h), h3⟩
    | cache i =>
      refine ⟨out', fun j b hj => ?_, fun j b h => ?_⟩
      · have : j = i ∧ b = true ∨ (Lock.cache j, b) ∈ h.held := by simpa [post1, G1.push] using hj
        rcases this with ⟨rfl, rfl⟩ | h
        · rfl
        · have := h2 j b h
          rw [hm.1] at this; cases this
      · cases h; exact hm.2
  | rlock l =>
    have more : ∀ {x}, x ∈ h.held → x ∈ (post1 h (.rlock l)).held := fun h => by simp [post1, G1.push, h]
    have out' : g.out = true → ∃ l', k = some l' ∧ (l' = .fan ∨ l' = .temp) ∧
        (l', true) ∈ (post1 h (.rlock l)).held := fun h => by
      obtain ⟨l, e, e2, e3⟩ := h1 h
      exact ⟨l, e, e2, more e3⟩
    cases l with
    | cache i =>
      refine ⟨out', fun j b hj => ?_, fun j b h => ?_⟩
      · have : j = i ∧ b = false ∨ (Lock.cache j, b) ∈ h.held := by simpa [post1, G1.push] using hj
        rcases this with ⟨rfl, rfl⟩ | h
        · rfl
        · have := h2 j b h
          rw [hm.1] at this; cases this
      · cases h; exact hm.2
    | _ => exact ⟨out', fun j b h => h2 j b (by simpa [post1, G1.push] using h), h3⟩
  | runlock l =>
    have out' : g.out = true → ∃ l', k = some l' ∧ (l' = .fan ∨ l' = .temp) ∧
        (l', true) ∈ (post1 h (.runlock l)).held := fun h => by
      obtain ⟨l, e, e2, e3⟩ := h1 h
      exact ⟨l, e, e2, keep (.inl rfl) l e2 e3⟩
    cases l with
    | cache i =>
      refine ⟨out', fun j b h => ?_, fun j b h => by cases h⟩
      obtain ⟨e1, e2⟩ := List.mem_filter.1 h
      have := h2 j b e1
      rw [show g.at' = some (i, false) from hm] at this
      cases this
      simp at e2
    | _ => exact ⟨out', fun j b h => h2 j b (List.mem_filter.1 h).1, h3⟩
  | unlock l =>
    have held : (post1 h (.unlock l)).held = h.held.filter (· ≠ (l, true)) := by
      simp only [post1]; split <;> rfl
    have out' : (l ≠ .fan ∧ l ≠ .temp) → g.out = true → ∃ l', k = some l' ∧ (l' = .fan ∨ l' = .temp) ∧
        (l', true) ∈ (post1 h (.unlock l)).held := fun hl h => by
      obtain ⟨l, e, e2, e3⟩ := h1 h
      exact ⟨l, e, e2, by rw [held]; exact keep (.inr hl) l e2 e3⟩
    have cache' : ∀ j b, (Lock.cache j, b) ∈ (post1 h (.unlock l)).held → g.at' = some (j, b) :=
      fun j b h => by rw [held] at h; exact h2 j b (List.mem_filter.1 h).1
    cases l with
    | fan =>
      refine ⟨fun h => by simp [post9] at h, cache', fun j b h => ?_⟩
      rw [show (post9 g (.unlock .fan)).at' = none from hm.1] at h; cases h
    | temp =>
      refine ⟨fun h => by simp [post9] at h, cache', fun j b h => ?_⟩
      rw [show (post9 g (.unlock .temp)).at' = none from hm.1] at h; cases h
    | pm => exact ⟨out' ⟨by simp, by simp⟩, cache', h3⟩
    | am => exact ⟨out' ⟨by simp, by simp⟩, cache', h3⟩
    | cache i =>
      refine ⟨out' ⟨by simp, by simp⟩, fun j b h => ?_, fun j b h => by cases h⟩
      have := cache' j b h
      rw [show g.at' = some (i, true) from hm] at this
      cases this
      rw [held] at h
      simp at h
  | _ => exact ⟨h1, h2, h3⟩

theorem link9_path {Q : G9 → α → Prop} {p q : Prog α} {acts : List Act} {g : G9} {h : G1}
    (hp : Path p acts q) (hok : p.Ok (R9 k own tc) Q g) (hl : Link9 k own tc g h) :
    q.Ok (R9 k own tc) Q (acts.foldl post9 g) ∧ Link9 k own tc (acts.foldl post9 g) (acts.foldl post1 h) := by
  induction hp with
  | nil => exact ⟨hok, hl⟩
  | snoc _ hn ih =>
    obtain ⟨i1, i2⟩ := ih
    rw [List.foldl_append, List.foldl_append]
    obtain ⟨h1, h2⟩ := ok_next i1 hn trivial
    exact ⟨h2, link9_post i2 h1⟩

/-- The same for the mutex of the library and the outer locks. -/
structure Lib9 (k : Option Lock) (g : G9) (h : G1) : Prop where
  lib : ∀ b, (.am, b) ∈ h.held → b = true ∧ g.lib = true
  within : g.lib = true → k = some .fan ∧ g.out = true
  mine : ∀ l b, l = .fan ∨ l = .temp → (l, b) ∈ h.held → k = some l

theorem lib9_post {g : G9} {h : G1} {a : Act} (hl : Lib9 k g h) (hm : must9 k own tc g a) :
    Lib9 k (post9 g a) (post1 h a) := by
  obtain ⟨h1, h2, h3⟩ := hl
  have fewer : ∀ {l}, ∀ x ∈ (post1 h (.unlock l)).held, x ∈ h.held ∧ x ≠ (l, true) := by
    intro l x hx
    have held : (post1 h (.unlock l)).held = h.held.filter (· ≠ (l, true)) := by
      simp only [post1]; split <;> rfl
    rw [held] at hx
    simpa using hx
  cases a with
  | lock l =>
    have more : ∀ x b, (x, b) ∈ (post1 h (.lock l)).held → x = l ∨ (x, b) ∈ h.held := by
      intro x b hx
      have : (x = l ∧ b = true) ∨ (x, b) ∈ h.held := by simpa [post1, G1.push] using hx
      exact this.imp_left And.left
    have mine' : (l = .fan ∨ l = .temp → k = some l) → ∀ x b, x = .fan ∨ x = .temp →
        (x, b) ∈ (post1 h (.lock l)).held → k = some x := by
      intro hk x b hx hm
      rcases more x b hm with rfl | hm
      · exact hk hx
      · exact h3 x b hx hm
    have lib' : l ≠ .am → ∀ b, (.am, b) ∈ (post1 h (.lock l)).held → b = true ∧ g.lib = true := by
      intro hl b hm
      rcases more _ b hm with e | hm
      · exact absurd e.symm hl
      · exact h1 b hm
    cases l with
    | fan => exact ⟨lib' (by simp), fun h => ⟨(h2 h).1, rfl⟩, mine' fun _ => hm⟩
    | temp => exact ⟨lib' (by simp), fun h => ⟨(h2 h).1, rfl⟩, mine' fun _ => hm⟩
    | am =>
      refine ⟨fun b hb => ⟨?_, rfl⟩, fun _ => hm, ?_⟩
      · have : b = true ∨ (Lock.am, b) ∈ h.held := by simpa [post1, G1.push] using hb
        exact this.elim id fun h => (h1 b h).1
      · exact mine' fun h => by rcases h with h | h <;> cases h
    | pm => exact ⟨lib' (by simp), h2, mine' fun h => by rcases h with h | h <;> cases h⟩
    | cache i => exact ⟨lib' (by simp), h2, mine' fun h => by rcases h with h | h <;> cases h⟩
  | rlock l =>
    have more : ∀ x b, (x, b) ∈ (post1 h (.rlock l)).held → x = l ∨ (x, b) ∈ h.held := by
      intro x b hx
      have : (x = l ∧ b = false) ∨ (x, b) ∈ h.held := by simpa [post1, G1.push] using hx
      exact this.imp_left And.left
    have mine' : (l ≠ .fan ∧ l ≠ .temp) → ∀ x b, x = .fan ∨ x = .temp →
        (x, b) ∈ (post1 h (.rlock l)).held → k = some x := by
      intro hk x b hx hm
      rcases more x b hm with rfl | hm
      · rcases hx with rfl | rfl
        · exact absurd rfl hk.1
        · exact absurd rfl hk.2
      · exact h3 x b hx hm
    have lib' : l ≠ .am → ∀ b, (.am, b) ∈ (post1 h (.rlock l)).held → b = true ∧ g.lib = true := by
      intro hl b hm
      rcases more _ b hm with e | hm
      · exact absurd e.symm hl
      · exact h1 b hm
    cases l with
    | fan => exact absurd hm id
    | temp => exact absurd hm id
    | am => exact absurd hm id
    | pm => exact ⟨lib' (by simp), h2, mine' (by simp)⟩
    | cache i => exact ⟨lib' (by simp), h2, mine' (by simp)⟩
  | runlock l =>
    have less : ∀ x ∈ (post1 h (.runlock l)).held, x ∈ h.held := fun x hx => (List.mem_filter.1 hx).1
    have : Lib9 k g (post1 h (.runlock l)) :=
      ⟨fun b hb => h1 b (less _ hb), h2, fun l b hl hb => h3 l b hl (less _ hb)⟩
    cases l <;> exact ⟨this.lib, this.within, this.mine⟩
  | unlock l =>
    have less := fun x hx => (fewer (l := l) x hx).1
    have lib' : ∀ b, (.am, b) ∈ (post1 h (.unlock l)).held → b = true ∧ g.lib = true := fun b hb => h1 b (less _ hb)
    have mine' : ∀ x b, x = .fan ∨ x = .temp → (x, b) ∈ (post1 h (.unlock l)).held → k = some x :=
      fun x b hx hb => h3 x b hx (less _ hb)
    cases l with
    | fan => exact ⟨lib', fun h => (nomatch (hm.2.symm.trans h : false = true)), mine'⟩
    | temp => exact ⟨lib', fun h => (nomatch (hm.2.symm.trans h : false = true)), mine'⟩
    | am =>
      refine ⟨fun b hb => ?_, fun h => (nomatch (show false = true from h)), mine'⟩
      obtain ⟨e1, e2⟩ := fewer _ hb
      rw [(h1 b e1).1] at e2
      exact absurd rfl e2
    | pm => exact ⟨lib', h2, mine'⟩
    | cache i => exact ⟨lib', h2, mine'⟩
  | _ => exact ⟨h1, h2, h3⟩

/-- A request that uses a cache or is about to is a Get request for it, or it refreshes it and holds its
outer lock. -/
theorem at_cache {S : Setup σ} (hS : ∀ c, S.calls c → OnServer c) {w : World σ} {s : Sys σ}
    (h : Reachable S (Sys.initial w) s) {i : Nat} {id : CacheId} (ha : AtCache s id (.client i)) :
    ∃ c, s.clients[i]? = some c ∧ (c.call = getCall id ∨ touches c.call id ∧
      ∃ l, outer c.call = some l ∧ ⟨l, true, .client i⟩ ∈ s.sh.held) := by
  obtain ⟨g, hi⟩ := inv1 h
  have hG : Glob1 g s.sh := hi.glob
  have key : ∀ c, s.clients[i]? = some c → ∃ g9 : G9,
      c.prog.Ok (R9 (outer c.call) (fun id => c.call = getCall id) (touches c.call)) (fun _ _ => True) g9 ∧
      Link9 (outer c.call) (fun id => c.call = getCall id) (touches c.call) g9 (g (.client i)) := by
    intro c hc
    obtain ⟨hp, hg⟩ := hi.hist.path i c hc
    have := link9_path (h := (scheme1 S).born c.call) hp (r9_call S.cv (hS _ (hi.call i c hc)))
      ⟨(fun h => by cases h), (fun _ _ h => by cases h), (fun _ _ h => by cases h)⟩
    refine ⟨_, this.1, ?_⟩
    rw [hg]; exact this.2
  have fin : ∀ c, s.clients[i]? = some c → ∀ g9 : G9, Link9 (outer c.call) (fun id => c.call = getCall id)
      (touches c.call) g9 (g (.client i)) → (c.call = getCall id ∨ touches c.call id ∧ g9.out = true) →
      ∃ c, s.clients[i]? = some c ∧ (c.call = getCall id ∨ touches c.call id ∧
        ∃ l, outer c.call = some l ∧ ⟨l, true, .client i⟩ ∈ s.sh.held) := by
    intro c hc g9 hl ho
    refine ⟨c, hc, ho.imp_right fun ⟨ht, ho⟩ => ⟨ht, ?_⟩⟩
    obtain ⟨l, e, -, e3⟩ := hl.out ho
    exact ⟨l, e, (hG.held_iff _ _ _).1 e3⟩
  obtain ⟨b, ⟨c, p, hc, hn⟩ | hh⟩ := ha
  · obtain ⟨g9, h1, h2⟩ := key c hc
    refine fin c hc g9 h2 ?_
    have := (ok_next h1 hn trivial).1
    cases b <;> exact this.2
  · have hm := (hG.held_iff _ _ _).2 hh
    match hc : s.clients[i]? with
    | none =>
      rw [hi.unborn i (List.getElem?_eq_none_iff.mp hc)] at hm
      cases hm
    | some c =>
      obtain ⟨g9, h1, h2⟩ := key c hc
      obtain ⟨c', e1, e2⟩ := fin c hc g9 h2 (h2.inner _ _ (h2.cache _ _ hm))
      exact ⟨c', by rw [← hc]; exact e1, e2⟩

theorem lib9_path {Q : G9 → α → Prop} {p q : Prog α} {acts : List Act} {g : G9} {h : G1}
    (hp : Path p acts q) (hok : p.Ok (R9 k own tc) Q g) (hl : Lib9 k g h) :
    q.Ok (R9 k own tc) Q (acts.foldl post9 g) ∧ Lib9 k (acts.foldl post9 g) (acts.foldl post1 h) := by
  induction hp with
  | nil => exact ⟨hok, hl⟩
  | snoc _ hn ih =>
    obtain ⟨i1, i2⟩ := ih
    rw [List.foldl_append, List.foldl_append]
    obtain ⟨h1, h2⟩ := ok_next i1 hn trivial
    exact ⟨h2, lib9_post i2 h1⟩

/-- The ghost state of a request. -/
theorem link9_client {S : Setup σ} (hS : ∀ c, S.calls c → OnServer c) {g : Tid → G1} {s : Sys σ}
    (hi : (scheme1 S).Inv g s) {i : Nat} {c : Client} (hc : s.clients[i]? = some c) :
    ∃ g9 : G9, c.prog.Ok (R9 (outer c.call) (fun id => c.call = getCall id) (touches c.call)) (fun _ _ => True) g9 ∧
      Link9 (outer c.call) (fun id => c.call = getCall id) (touches c.call) g9 (g (.client i)) ∧
      Lib9 (outer c.call) g9 (g (.client i)) := by
  obtain ⟨hp, hg⟩ := hi.hist.path i c hc
  have h1 := link9_path (h := (scheme1 S).born c.call) hp (r9_call S.cv (hS _ (hi.call i c hc)))
    ⟨(fun h => by cases h), (fun _ _ h => by cases h), (fun _ _ h => by cases h)⟩
  have h2 := lib9_path (h := (scheme1 S).born c.call) hp (r9_call S.cv (hS _ (hi.call i c hc)))
    ⟨(fun _ h => by cases h), (fun h => by cases h), (fun _ _ _ h => by cases h)⟩
  refine ⟨_, h1.1, ?_⟩
  rw [hg]; exact ⟨h1.2, h2.2⟩

/-- A request that has an outer lock or is about to take it has it as its outer lock. -/
theorem at_outer {S : Setup σ} (hS : ∀ c, S.calls c → OnServer c) {w : World σ} {s : Sys σ}
    (h : Reachable S (Sys.initial w) s) {i : Nat} {l : Lock} (hl : l = .fan ∨ l = .temp) {b : Bool}
    (ha : Poised s (.client i) (taking l b) ∨ ⟨l, b, .client i⟩ ∈ s.sh.held) :
    ∃ c, s.clients[i]? = some c ∧ outer c.call = some l := by
  obtain ⟨g, hi⟩ := inv1 h
  have hG : Glob1 g s.sh := hi.glob
  rcases ha with ⟨c, p, hc, hn⟩ | hh
  · obtain ⟨g9, h1, -⟩ := link9_client hS hi hc
    refine ⟨c, hc, ?_⟩
    have := (ok_next h1 hn trivial).1
    rcases hl with rfl | rfl <;> cases b <;> first | exact this | exact absurd this id
  · have hm := (hG.held_iff _ _ _).2 hh
    match hc : s.clients[i]? with
    | none =>
      rw [hi.unborn i (List.getElem?_eq_none_iff.mp hc)] at hm
      cases hm
    | some c =>
      obtain ⟨g9, -, -, h2⟩ := link9_client hS hi hc
      exact ⟨c, rfl, h2.mine _ _ hl hm⟩

/-- Who has the mutex of the library or is about to take it has the lock of the fans. -/
theorem at_lib {S : Setup σ} (hS : ∀ c, S.calls c → OnServer c) {w : World σ} {s : Sys σ}
    (h : Reachable S (Sys.initial w) s) {i : Nat} {b : Bool}
    (ha : Poised s (.client i) (taking .am b) ∨ ⟨.am, b, .client i⟩ ∈ s.sh.held) :
    ⟨.fan, true, .client i⟩ ∈ s.sh.held := by
  obtain ⟨g, hi⟩ := inv1 h
  have hG : Glob1 g s.sh := hi.glob
  refine (hG.held_iff _ _ _).1 ?_
  have fin : ∀ {c : Client} {g9 : G9}, Link9 (outer c.call) (fun id => c.call = getCall id) (touches c.call) g9
      (g (.client i)) → (outer c.call = some .fan ∧ g9.out = true) → (.fan, true) ∈ (g (.client i)).held := by
    rintro c g9 hl ⟨h1, h2⟩
    obtain ⟨l, e1, -, e2⟩ := hl.out h2
    rw [h1] at e1
    cases e1
    exact e2
  rcases ha with ⟨c, p, hc, hn⟩ | hh
  · obtain ⟨g9, h1, h2, -⟩ := link9_client hS hi hc
    have := (ok_next h1 hn trivial).1
    cases b with
    | true => exact fin h2 this
    | false => exact absurd this id
  · have hm := (hG.held_iff _ _ _).2 hh
    match hc : s.clients[i]? with
    | none =>
      rw [hi.unborn i (List.getElem?_eq_none_iff.mp hc)] at hm
      cases hm
    | some c =>
      obtain ⟨g9, -, h1, h2⟩ := link9_client hS hi hc
      exact fin h1 (h2.within (h2.lib _ hm).2)

end Comfo
