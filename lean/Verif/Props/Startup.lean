import Verif.Props.Served
import Verif.Props.Cache
import Verif.Props.Setting
import Verif.Spec.Startup
/-!
# C73: nothing is served that the unit has never said
-/
namespace Comfo.Props
open Spec

theorem lastGood_from {id : CacheId} (post : List IoEv) :
    ∀ (pre : List IoEv) (s : Option (CVal id × Int) × Cur),
    (∀ v, s.1 = some v → ∃ q, IoEv.got true (q, none) ∈ pre ∧
      q.command = requestCode id + 1 ∧ decode id q.data = some v.1) →
    (∀ pl t, s.2 = .replied pl t → ∃ q, IoEv.got true (q, none) ∈ pre ∧
      q.command = requestCode id + 1 ∧ q.data = pl) →
    ∀ v, (post.foldl (scanEv id) s).1 = some v → ∃ q, IoEv.got true (q, none) ∈ pre ++ post ∧
      q.command = requestCode id + 1 ∧ decode id q.data = some v.1 := by
  induction post with
  | nil => intro pre s h1 _ v hv; simpa using h1 v hv
  | cons ev post ih =>
    intro pre s h1 h2 v hv
    have weaken1 : ∀ v, s.1 = some v → ∃ q, IoEv.got true (q, none) ∈ pre ++ [ev] ∧
        q.command = requestCode id + 1 ∧ decode id q.data = some v.1 := by
      intro v hv
      obtain ⟨q, h, h'⟩ := h1 v hv
      exact ⟨q, List.mem_append_left _ h, h'⟩
    rw [show pre ++ ev :: post = (pre ++ [ev]) ++ post by simp]
    refine ih (pre ++ [ev]) (scanEv id s ev) ?_ ?_ v hv
    · intro v hv
      obtain ⟨x, cur⟩ := s
      rcases cur with _ | t | t | ⟨pl, t⟩
      · rcases ev with ⟨bs, n, _ | e⟩ | ⟨_ | _, q, _ | e⟩ | ⟨i, t⟩ | b <;> exact weaken1 v hv
      · rcases ev with ⟨bs, n, _ | e⟩ | ⟨_ | _, q, _ | e⟩ | ⟨i, t⟩ | b <;> exact weaken1 v hv
      · rcases ev with ⟨bs, n, _ | e⟩ | ⟨_ | _, q, _ | e⟩ | ⟨i, t⟩ | b <;> exact weaken1 v hv
      · rcases ev with ⟨bs, n, _ | e⟩ | ⟨_ | _, q, _ | e⟩ | ⟨i, t⟩ | b <;>
          try exact weaken1 v hv
        simp only [scanEv] at hv
        match hd : decode id pl with
        | none => rw [hd] at hv; exact weaken1 v hv
        | some y =>
          rw [hd] at hv
          simp only at hv
          split at hv
          · cases hv
            obtain ⟨q, h, h', h''⟩ := h2 pl t rfl
            exact ⟨q, List.mem_append_left _ h, h', by rw [h'', hd]⟩
          · exact weaken1 v hv
    · intro pl t h
      obtain ⟨x, cur⟩ := s
      rcases cur with _ | t | t | ⟨pl, t⟩
      · rcases ev with ⟨bs, n, _ | e⟩ | ⟨_ | _, q, _ | e⟩ | ⟨i, t⟩ | b <;>
          simp only [scanEv] at h <;> (try cases h)
        split at h <;> cases h
      · rcases ev with ⟨bs, n, _ | e⟩ | ⟨_ | _, q, _ | e⟩ | ⟨i, t⟩ | b <;>
          simp only [scanEv] at h <;> (try cases h) <;> split at h <;> cases h
      · rcases ev with ⟨bs, n, _ | e⟩ | ⟨_ | _, q, _ | e⟩ | ⟨i, t⟩ | b <;>
          simp only [scanEv] at h <;> (try cases h) <;> split at h <;> cases h
        rename_i hq
        exact ⟨q, by simp, hq, rfl⟩
      · rcases ev with ⟨bs, n, _ | e⟩ | ⟨_ | _, q, _ | e⟩ | ⟨i, t⟩ | b <;>
          simp only [scanEv] at h <;> (try cases h) <;> split at h <;> cases h

/-- The server when `StartCaches` is done, on a line `L`. -/
def started (L : Line σ) (line : σ) (clock : Int) (adv : List Nat) : World σ :=
  (startCaches.run L (World.initial line clock adv)).2

/-- **C73** (partial) If the query for a cache made while the server started was successful, then, in
every interleaving, whatever a Get request of that cache answers has been said by the unit.
Missing: `StartCaches` goes on when a query fails, and the zero value is then served as if it had
been read (`C73_told_violated`). -/
theorem C73_told_partial {S : Setup σ} (hL : S.line.NoPanic) {line : σ} {clock : Int}
    {adv : List Nat} {s : Sys σ} (h : Reachable S (Sys.initial (started S.line line clock adv)) s)
    {i : Nat} {id : CacheId} {r : Resp} (ha : Answered s i (getCall id) r)
    (hs : lastGood id (started S.line line clock adv).io ≠ none) :
    ∃ v, Told id v (started S.line line clock adv).io s.sh.trace ∧ r = getAnswer id v := by
  obtain ⟨pre, c, post, h1, h2, h3⟩ := C37_served_concurrently h ha
  unfold current at h2
  match hc : (scanAll id pre).1 with
  | some (v, t) =>
    rw [hc] at h2
    obtain ⟨u, q, h4, h5, h6⟩ := scanAll_from pre [] (none, fun _ => .idle) (by simp) (by simp) _ hc
    refine ⟨v, ⟨q, h5, h6, .inr ⟨u, ?_⟩⟩, by rw [h3, h2]⟩
    rw [h1]; exact List.mem_append_left _ (by simpa using h4)
  | none =>
    rw [hc] at h2
    obtain ⟨a, w', h4, h5⟩ := good_updateCaches hL true (World.initial line clock adv)
    have hA : Agrees (started S.line line clock adv) := by
      have : startCaches.run S.line (World.initial line clock adv) = (some a, w') := h4
      rw [started, this]
      exact agrees_evolves (agrees_initial _ _ _) h5
    match hg : lastGood id (started S.line line clock adv).io with
    | none => exact absurd hg hs
    | some (v, t) =>
      obtain ⟨q, h6, h7, h8⟩ := lastGood_from _ [] (none, .idle) (by simp) (by simp) _ hg
      refine ⟨v, ⟨q, h7, h8, .inl (by simpa using h6)⟩, ?_⟩
      rw [h3, h2]
      have := (hA id).1
      rw [servedFrom, hg] at this
      show getAnswer id ((started S.line line clock adv).get id).val = _
      rw [this]

/-- The hypotheses are met: 21 °C, read while the server started. -/
example : lastGood .temps (started demo.line 0 7 []).io ≠ none ∧
    (Sys.execs demo ([.arrive .getTemps] ++ steps 3 (.client 0))
      (Sys.initial (started demo.line 0 7 []))).any (fun (s : Sys UInt8) =>
    match s.clients.map Client.prog with
    | [.ret (.temps (.ok a))] => a.comfort == 21
    | _ => false) = true := by decide

/-- The unit does not answer. -/
def deaf : Setup Unit where
  cv := amd64
  line :=
    { write := fun bs s => ((bs.length, none), s)
      read := fun _ s => (.ret {} (some .timeout), s) }

/-- **C73** (violated) The unit does not answer while the server starts. The server starts
nevertheless and answers requests, without any sign of an error: all temperatures are 0 °C, and the
unit has no malfunction. The unit has not said anything. -/
theorem C73_told_violated : deaf.line.NoPanic ∧ ∃ s, Reachable deaf
      (Sys.initial (started deaf.line () 0 [])) s ∧
    Answered s 0 (getCall .temps) (getAnswer .temps {}) ∧
    Answered s 1 (getCall .errors) (getAnswer .errors {}) ∧
    ∀ id v, ¬ Told id v (started deaf.line () 0 []).io s.sh.trace := by
  refine ⟨fun e s => by simp [deaf], ?_⟩
  have h := execs_sound (S := deaf) (cmds := [.arrive .getTemps, .arrive .getErrors] ++
      steps 3 (.client 0) ++ steps 3 (.client 1))
    (fun _ _ => trivial) (.start (s₀ := Sys.initial (started deaf.line () 0 []))) rfl
  refine ⟨_, h, rfl, rfl, ?_⟩
  rintro id v ⟨q, -, -, h | ⟨t, h⟩⟩
  · revert h
    have : (started deaf.line () 0 []).io.all (fun ev => match ev with
      | .got _ (_, none) => false
      | _ => true) = true := by decide
    intro h
    exact absurd (List.all_eq_true.mp this _ h) (by simp)
  · simp [Sys.initial] at h

/-- **C73** (violated) What a client sees of it is not all. The unit runs at speed 4 and does not
answer while the server starts; later it works again, and a client asks for the next *higher* speed:
the server commands speed 1. -/
theorem C73_increase_lowers_violated : ∃ s₁ s₂, Reachable vent
      (Sys.initial (started vent.line { speed := 4, comfort := 82, mute := true } 0 [])) s₁ ∧
    s₁.sh.world.line.speed = 4 ∧ s₁.sh.world.line.mute = false ∧ s₁.clients = [] ∧
    Reachable vent s₁ s₂ ∧ s₂.clients.map Client.call = [.setSpeed 0 true] ∧
    s₂.sh.world.line.speed = 1 := by
  have h1 : Reachable vent
      (Sys.initial (started vent.line { speed := 4, comfort := 82, mute := true } 0 [])) _ :=
    Reachable.start.step (.environment
      { (started vent.line { speed := 4, comfort := 82, mute := true } 0 []).line with
        mute := false } 0 ⟨false, false, rfl⟩)
  exact ⟨_, _, h1, rfl, rfl, rfl, execs_sound (S := vent)
    (cmds := [.arrive (.setSpeed 0 true)] ++ steps 5 (.client 0)) (fun _ _ => trivial) .start rfl,
    rfl, rfl⟩

end Comfo.Props
