import Verif.Spec.Main
import Verif.Props.Logging
import Verif.Props.Startup
import Verif.Props.Config
/-!
# C95: what the program does when it starts, and what it says about it
-/
namespace Comfo.Props
open Spec Comfo.Pb Comfo.Twirp Comfo.Log

theorem connectLogged_erase (d : Dialer κ ε ω) (mode unit : Str) (w : ω) :
    (connectLogged d mode unit w).1 = connectUnit d mode unit w := by
  unfold connectLogged connectUnit
  by_cases h1 : mode = "tcp".toList
  · rw [if_pos h1, if_pos h1]
    generalize d (.tcp unit) w = x
    obtain ⟨⟨c, _ | e⟩, w'⟩ := x <;> rfl
  · rw [if_neg h1, if_neg h1]
    by_cases h2 : mode = "serial".toList
    · rw [if_pos h2, if_pos h2]
      generalize d (.serial unit 9600) w = x
      obtain ⟨⟨c, _ | e⟩, w'⟩ := x <;> rfl
    · rw [if_neg h2, if_neg h2]

/-- The caches of a list, one after another. -/
def popAll (W : Wording) : List CacheId → Prog (List Record)
  | [] => .ret []
  | id :: ids => (updateLogged W id true).bind fun r => (popAll W ids).bind fun rs => .ret (r ++ rs)

theorem updateCachesLogged_eq (W : Wording) : updateCachesLogged W true = popAll W startOrder := by
  simp only [updateCachesLogged, startOrder, popAll, bind_assoc, Prog.bind, List.append_assoc,
    List.append_nil]

theorem startCachesLogged_erase (W : Wording) :
    (startCachesLogged W).bind (fun _ => .ret ()) = startCaches := by
  simp only [startCachesLogged, updateCachesLogged, startCaches, updateCaches, ← updateLogged_erase W,
    bind_assoc, Prog.bind]

theorem post_forced (W : Wording) (id : CacheId) : (updateLogged W id true).Post fun acts recs =>
    ∃ t evs q e, Transaction (requestCode id) [] true evs (q, e) ∧
      ((∃ v, outcome id q e = some v ∧
        effects acts = .note id t :: (evs.map toAct ++ [.store id ⟨v, t⟩]) ∧ recs = []) ∨
       (outcome id q e = none ∧ effects acts = .note id t :: evs.map toAct ∧
        ∃ x r, recs = [r] ∧ Reports W id x r ∧ ∀ y, e = some y → x = y)) := by
  unfold updateLogged
  simp only [Prog.Post, if_true]
  intro t
  have h := post_refreshLogged W id t
  simp only [Prog.Post] at h
  exact h.mono fun as recs h => ⟨t, h⟩

theorem post_popAll (W : Wording) : ∀ ids, (popAll W ids).Post fun acts recs =>
    ∃ bad, Filled ids (effects acts) bad ∧ ReportsAll W bad recs
  | [] => ⟨[], .nil, trivial⟩
  | id :: ids => by
    refine (post_forced W id).seq fun as r h => (post_popAll W ids).seq fun bs rs hb => ?_
    obtain ⟨bad, h1, h2⟩ := hb
    obtain ⟨t, evs, q, e, ht, ⟨v, ho, h3, rfl⟩ | ⟨ho, h3, x, r, rfl, h4, h5⟩⟩ := h
    · refine ⟨bad, ?_, h2⟩
      cases e with
      | some e => cases ho
      | none =>
        rw [List.append_nil, effects_append', h3]
        simp only [List.cons_append, List.append_assoc]
        exact .good id ids t evs q v _ bad ht ho h1
    · refine ⟨(id, x) :: bad, ?_, h4, h2⟩
      rw [List.append_nil, effects_append', h3]
      exact .bad id ids t evs q e x _ bad ht ho h5 h1

/-- **C95** What is done and logged is the program without a log: the same attempts to connect, the same
decision, and the same exchanges with the unit. -/
theorem C95_boot (W : Wording) (text : ε → Bytes) (d : Dialer κ ε ω) (args : List Str) (env : Environ)
    (w : ω) :
    (mainLogged W text d args env w).2 = (boot d args env w).2 ∧
    match (boot d args env w).1 with
    | .usage => (mainLogged W text d args env w).1 = .ret ([], .exits 2)
    | .noUnit _ => ∃ recs, (mainLogged W text d args env w).1 = .ret (recs, .exits 1)
    | .serving _ listen _ => (mainLogged W text d args env w).1.Post (fun _ x => x.2 = .listens listen) ∧
        (mainLogged W text d args env w).1.bind (fun _ => .ret ()) = startCaches := by
  unfold mainLogged boot
  cases hp : parseArgs Flags.start args with
  | none => exact ⟨rfl, rfl⟩
  | some f =>
    simp only
    have e := connectLogged_erase d (find f env .mode) (find f env .target) w
    generalize connectLogged d (find f env .mode) (find f env .target) w = x at e
    obtain ⟨⟨⟨c, er⟩, w'⟩, recs⟩ := x
    rw [← e]
    cases er with
    | some er => exact ⟨rfl, _, rfl⟩
    | none =>
      refine ⟨rfl, ?_, ?_⟩
      · exact (post_true _).seq fun _ _ _ => rfl
      · simp only [bind_assoc, Prog.bind]
        exact startCachesLogged_erase W

/-- **C95** If there is no connection to the unit, the program exits with 1: it does nothing to the unit
and does not listen. The log has one error, the last record, and its text names the target, or the mode
if there is no such mode. -/
theorem C95_no_unit (W : Wording) (text : ε → Bytes) (d : Dialer κ ε ω) (args : List Str) (env : Environ)
    (w : ω) {e : DialErr ε} (h : (boot d args env w).1 = .noUnit e) :
    ∃ f, parseArgs Flags.start args = some f ∧ (mainLogged W text d args env w).1.Post fun acts x =>
      acts = [] ∧ x.2 = .exits 1 ∧ ∃ pre last t, x.1 = pre ++ [last] ∧ (∀ r ∈ pre, r.level ≠ .error) ∧
        last.level = .error ∧ last.attrs = [(lit "error", .str t)] ∧
        (strBytes (find f env .target) <:+: t ∧
            (find f env .mode = "tcp".toList ∨ find f env .mode = "serial".toList) ∨
          strBytes (find f env .mode) <:+: t ∧
            find f env .mode ≠ "tcp".toList ∧ find f env .mode ≠ "serial".toList) := by
  unfold boot at h
  unfold mainLogged
  cases hp : parseArgs Flags.start args with
  | none => rw [hp] at h; cases h
  | some f =>
    rw [hp] at h
    simp only at h ⊢
    refine ⟨f, rfl, ?_⟩
    have inf : ∀ a b c : Bytes, b <:+: a ++ b ++ c := fun a b c => ⟨a, c, rfl⟩
    unfold connectLogged
    unfold connectUnit at h
    by_cases h1 : find f env .mode = "tcp".toList
    · rw [if_pos h1] at h ⊢
      generalize d (.tcp (find f env .target)) w = x at h
      obtain ⟨⟨c, _ | er⟩, w'⟩ := x
      · cases h
      · refine ⟨rfl, rfl, [_, _], _, _, rfl, ?_, rfl, rfl, .inl ⟨?_, .inl h1⟩⟩
        · intro r hr
          simp only [List.mem_cons, List.not_mem_nil, or_false] at hr
          rcases hr with rfl | rfl <;> nofun
        · simp only [dialText, List.append_assoc]
          exact ⟨lit "unable to dial the unit at ", lit ": " ++ text er, by simp only [List.append_assoc]⟩
    · rw [if_neg h1] at h ⊢
      by_cases h2 : find f env .mode = "serial".toList
      · rw [if_pos h2] at h ⊢
        generalize d (.serial (find f env .target) 9600) w = x at h
        obtain ⟨⟨c, _ | er⟩, w'⟩ := x
        · cases h
        · refine ⟨rfl, rfl, [_, _], _, _, rfl, ?_, rfl, rfl, .inl ⟨?_, .inr h2⟩⟩
          · intro r hr
            simp only [List.mem_cons, List.not_mem_nil, or_false] at hr
            rcases hr with rfl | rfl <;> nofun
          · simp only [dialText, List.append_assoc]
            exact ⟨lit "unable to open serial device at ", lit ": " ++ text er, by simp only [List.append_assoc]⟩
      · rw [if_neg h2] at h ⊢
        refine ⟨rfl, rfl, [_], _, _, rfl, ?_, rfl, rfl, .inr ⟨?_, h1, h2⟩⟩
        · intro r hr
          simp only [List.mem_cons, List.not_mem_nil, or_false] at hr
          subst hr; nofun
        · exact ⟨lit "unsupported unit mode ", [], by simp only [dialText, List.append_nil]⟩

/-- **C95** Otherwise the unit is asked for all six values, one after another, and only then the server
listens, at the address of the settings. The log says which unit and which address, and between
"Populating caches" and "Cache worker started" there is one error for each value that could not be got,
in this order. -/
theorem C95_starts (W : Wording) (text : ε → Bytes) (d : Dialer κ ε ω) (args : List Str) (env : Environ)
    (w : ω) {conn : Option κ} {listen : Str} {debug : Bool}
    (h : (boot d args env w).1 = .serving conn listen debug) :
    ∃ f, parseArgs Flags.start args = some f ∧ (mainLogged W text d args env w).1.Post fun acts x =>
      ∃ bad r₀ r₁ r₂ r₃ errs r₄ r₅, Filled startOrder (effects acts) bad ∧
        x = (r₀ :: r₁ :: r₂ :: r₃ :: (errs ++ [r₄, r₅]), .listens listen) ∧
        (r₀.level = .debug) ∧
        ((find f env .mode = "tcp".toList ∧
          Informs "Connecting to the unit over tcp" [(lit "address", .str (strBytes (find f env .target)))] r₁ ∧
          Informs "Connection established!" [(lit "address", .str (strBytes (find f env .target)))] r₂) ∨
         (find f env .mode = "serial".toList ∧
          Informs "Opening serial device" [(lit "device", .str (strBytes (find f env .target)))] r₁ ∧
          Informs "Opened device" [(lit "device", .str (strBytes (find f env .target)))] r₂)) ∧
        Informs "Populating caches" [] r₃ ∧ ReportsAll W bad errs ∧
        Informs "Cache worker started" [] r₄ ∧
        Informs "API listening" [(lit "address", .str (strBytes listen))] r₅ := by
  have key : (startCachesLogged W).Post fun acts rs => ∃ bad r₃ errs r₄,
      Filled startOrder (effects acts) bad ∧ rs = r₃ :: (errs ++ [r₄]) ∧
      Informs "Populating caches" [] r₃ ∧ ReportsAll W bad errs ∧ Informs "Cache worker started" [] r₄ := by
    unfold startCachesLogged
    rw [updateCachesLogged_eq]
    refine (post_popAll W startOrder).seq fun as rs h => ?_
    obtain ⟨bad, h1, h2⟩ := h
    exact ⟨bad, _, rs, _, by rw [List.append_nil]; exact h1, rfl, ⟨rfl, rfl, rfl⟩, h2, ⟨rfl, rfl, rfl⟩⟩
  unfold boot at h
  unfold mainLogged
  cases hp : parseArgs Flags.start args with
  | none => rw [hp] at h; cases h
  | some f =>
    rw [hp] at h
    simp only at h ⊢
    refine ⟨f, rfl, ?_⟩
    unfold connectLogged
    unfold connectUnit at h
    by_cases h1 : find f env .mode = "tcp".toList
    · rw [if_pos h1] at h ⊢
      generalize d (.tcp (find f env .target)) w = x at h
      obtain ⟨⟨c, _ | er⟩, w'⟩ := x
      · simp only [Boot.serving.injEq] at h
        obtain ⟨-, rfl, -⟩ := h
        refine key.seq fun as rs hk => ?_
        obtain ⟨bad, r₃, errs, r₄, k1, rfl, k2, k3, k4⟩ := hk
        refine ⟨bad, ⟨.debug, lit "Debug logging enabled", []⟩,
          info "Connecting to the unit over tcp" [(lit "address", .str (strBytes (find f env .target)))],
          info "Connection established!" [(lit "address", .str (strBytes (find f env .target)))], r₃, errs, r₄,
          info "API listening" [(lit "address", .str (strBytes (find f env .listen)))],
          by rw [List.append_nil]; exact k1, ?_, rfl,
          .inl ⟨h1, ⟨rfl, rfl, rfl⟩, ⟨rfl, rfl, rfl⟩⟩, k2, k3, k4, ⟨rfl, rfl, rfl⟩⟩
        simp only [List.cons_append, List.append_assoc, List.nil_append]
      · cases h
    · rw [if_neg h1] at h ⊢
      by_cases h2 : find f env .mode = "serial".toList
      · rw [if_pos h2] at h ⊢
        generalize d (.serial (find f env .target) 9600) w = x at h
        obtain ⟨⟨c, _ | er⟩, w'⟩ := x
        · simp only [Boot.serving.injEq] at h
          obtain ⟨-, rfl, -⟩ := h
          refine key.seq fun as rs hk => ?_
          obtain ⟨bad, r₃, errs, r₄, k1, rfl, k2, k3, k4⟩ := hk
          refine ⟨bad, ⟨.debug, lit "Debug logging enabled", []⟩,
            info "Opening serial device" [(lit "device", .str (strBytes (find f env .target)))],
            info "Opened device" [(lit "device", .str (strBytes (find f env .target)))], r₃, errs, r₄,
            info "API listening" [(lit "address", .str (strBytes (find f env .listen)))],
            by rw [List.append_nil]; exact k1, ?_, rfl,
              .inr ⟨h2, ⟨rfl, rfl, rfl⟩, ⟨rfl, rfl, rfl⟩⟩, k2, k3, k4, ⟨rfl, rfl, rfl⟩⟩
          simp only [List.cons_append, List.append_assoc, List.nil_append]
        · cases h
      · rw [if_neg h2] at h
        cases h

/-! ## What is served afterwards -/

theorem lastGood_refresh {i : CacheId} {evs : List IoEv} {q : Packet} {e : Option Err}
    (ht : Transaction (requestCode i) [] true evs (q, e)) (log : List IoEv) (t : Int) (id : CacheId) :
    (id ≠ i → lastGood id (log ++ .refresh i t :: evs) = lastGood id log) ∧
    (id = i → ∀ v, outcome i q e = some v → lastGood id (log ++ .refresh i t :: evs) ≠ none) ∧
    (id = i → outcome i q e = none → lastGood id (log ++ .refresh i t :: evs) = lastGood id log) := by
  refine ⟨fun h => ?_, ?_, ?_⟩
  · rw [lastGood, List.foldl_append, scan_other ht (Ne.symm h)]; rfl
  · rintro rfl v hv
    rw [lastGood, List.foldl_append, scan_same ht, hv]; nofun
  · rintro rfl hv
    rw [lastGood, List.foldl_append, scan_same ht, hv]; rfl

theorem updateLogged_run {L : Line σ} (hL : L.NoPanic) (W : Wording) (id : CacheId) (w : World σ) :
    ∃ recs w' evs q e, (updateLogged W id true).run L w = (some recs, w') ∧
      Transaction (requestCode id) [] true evs (q, e) ∧
      w'.io = w.io ++ .refresh id w.tick.clock :: evs ∧
      ((∃ v, outcome id q e = some v ∧ recs = []) ∨
        (outcome id q e = none ∧ ∃ x r, recs = [r] ∧ Reports W id x r)) := by
  obtain ⟨line, evs, q, e, v, e', hr, ht, h1, h2⟩ := fetch_run hL id
    (w.tick.after w.tick.line [.refresh id w.tick.clock])
  have key : (updateLogged W id true).run L w = (id.fetch.bind fun (v, err) =>
      match err with
      | none => .store id { val := v, last := w.tick.clock } <| .unlock (.cache id) <| .ret []
      | some e => .unlock (.cache id) <| .ret [updateRecord W id e]).run L
        (w.tick.after w.tick.line [.refresh id w.tick.clock]) := by
    unfold updateLogged
    simp only [Prog.run, if_true, log_eq']; rfl
  rw [key, run_bind_some hr]
  simp only [after_after, List.singleton_append]
  cases e' with
  | none =>
    have hd := h2 rfl
    have he := (h1.1 rfl).1
    refine ⟨[], _, evs, q, e, rfl, ht, ?_, .inl ⟨v, by simp [outcome, he, hd], rfl⟩⟩
    cases id <;> rfl
  | some e1 =>
    have : outcome id q e = none := by
      unfold outcome
      cases e with
      | some _ => rfl
      | none =>
        cases hdd : decode id q.data with
        | none => rfl
        | some x => simp [hdd] at h1
    exact ⟨_, _, evs, q, e, rfl, ht, rfl, .inr ⟨this, e1, _, rfl, reports_update W id e1⟩⟩

/-- A record names one cache only. -/
theorem names_unique {a b : CacheId} {r : Record} (ha : Names a r) (hb : Names b r) : a = b := by
  obtain ⟨x, hx⟩ := ha
  obtain ⟨y, hy⟩ := hb
  have key : ∀ a b : CacheId, a ≠ b → ∃ n, (cacheTitle a)[n]? ≠ (cacheTitle b)[n]? ∧
      n < (cacheTitle a).length ∧ n < (cacheTitle b).length := by
    intro a b hab
    cases a <;> cases b <;> first
      | exact absurd rfl hab
      | exact ⟨0, by decide +kernel⟩
      | exact ⟨1, by decide +kernel⟩
      | exact ⟨2, by decide +kernel⟩
      | exact ⟨3, by decide +kernel⟩
  by_cases hi : a = b
  · exact hi
  · obtain ⟨n, h1, h2, h3⟩ := key a b hi
    have := congrArg (fun l => l[n]?) (hx.symm.trans hy)
    simp only [List.getElem?_append_left h2, List.getElem?_append_left h3] at this
    exact absurd this h1

theorem popAll_run {L : Line σ} (hL : L.NoPanic) (W : Wording) : ∀ (ids : List CacheId) (w : World σ),
    ids.Nodup → ∃ recs w', (popAll W ids).run L w = (some recs, w') ∧
      (∀ r ∈ recs, r.level = .error ∧ ∃ id ∈ ids, Names id r) ∧
      (∀ id, id ∉ ids → lastGood id w'.io = lastGood id w.io) ∧
      (∀ id ∈ ids, (∃ r ∈ recs, Names id r) ∧ lastGood id w'.io = lastGood id w.io ∨
        (∀ r ∈ recs, ¬ Names id r) ∧ lastGood id w'.io ≠ none)
  | [], w, _ => ⟨[], w, rfl, by simp, fun _ _ => rfl, by simp⟩
  | i :: ids, w, hn => by
    rw [List.nodup_cons] at hn
    obtain ⟨recs, w', evs, q, e, h1, ht, hio, hc⟩ := updateLogged_run hL W i w
    obtain ⟨rs, w'', k1, k2, k3, k4⟩ := popAll_run hL W ids w' hn.2
    refine ⟨recs ++ rs, w'', ?_, ?_, ?_, ?_⟩
    · rw [popAll, run_bind_some h1, run_bind_some k1]; rfl
    · intro r hr
      rcases List.mem_append.1 hr with hr | hr
      · rcases hc with ⟨v, -, rfl⟩ | ⟨-, x, r', rfl, hr'⟩
        · cases hr
        · rw [List.mem_singleton] at hr
          subst hr
          exact ⟨hr'.1, i, by simp, hr'.2.1⟩
      · obtain ⟨hl, id, hid, hx⟩ := k2 r hr
        exact ⟨hl, id, by simp [hid], hx⟩
    · intro id hid
      rw [List.mem_cons, not_or] at hid
      rw [k3 id hid.2, hio, (lastGood_refresh ht w.io _ id).1 hid.1]
    · intro id hid
      by_cases hi : id = i
      · subst hi
        have no : ∀ r ∈ rs, ¬ Names id r := by
          intro r hr hx
          obtain ⟨-, id', h2, h3⟩ := k2 r hr
          rw [names_unique hx h3] at hn
          exact hn.1 h2
        rw [k3 id hn.1, hio]
        rcases hc with ⟨v, ho, rfl⟩ | ⟨ho, x, r', rfl, hr'⟩
        · exact .inr ⟨by simpa using no, (lastGood_refresh ht w.io _ id).2.1 rfl v ho⟩
        · exact .inl ⟨⟨r', by simp, hr'.2.1⟩, (lastGood_refresh ht w.io _ id).2.2 rfl ho⟩
      · have hid' : id ∈ ids := by
          rcases List.mem_cons.1 hid with h | h
          · exact absurd h hi
          · exact h
        have e0 : lastGood id w'.io = lastGood id w.io := by
          rw [hio, (lastGood_refresh ht w.io _ id).1 hi]
        rcases k4 id hid' with ⟨⟨r, hr, hx⟩, h2⟩ | ⟨h2, h3⟩
        · exact .inl ⟨⟨r, by simp [hr], hx⟩, h2.trans e0⟩
        · refine .inr ⟨?_, h3⟩
          intro r hr
          rcases List.mem_append.1 hr with hr | hr
          · rcases hc with ⟨v, -, rfl⟩ | ⟨-, x, r', rfl, hr'⟩
            · cases hr
            · rw [List.mem_singleton] at hr
              subst hr
              exact fun hx => hi (names_unique hx hr'.2.1)
          · exact h2 r hr

/-- **C95** The exit status: 2 for flags that are not known, and nothing is logged or done; 1 if the unit
could not be connected to, or listening has ended with an error, and the last record is an error that
contains its text; 0 only if listening has ended without an error. -/
theorem C95_ends (W : Wording) (text : ε → Bytes) (d : Dialer κ ε ω) (args : List Str) (env : Environ)
    (w : ω) (served : Str → Option Bytes) :
    (whole W text d args env w served).Post fun acts x =>
      match (boot d args env w).1 with
      | .usage => acts = [] ∧ x = ([], 2)
      | .noUnit e => acts = [] ∧ x.2 = 1 ∧ ∃ pre last, x.1 = pre ++ [last] ∧ last.level = .error ∧
          last.attrs = [(lit "error", .str (dialText text e))]
      | .serving _ listen _ =>
        match served listen with
        | some e => x.2 = 1 ∧ ∃ pre last, x.1 = pre ++ [last] ∧ last.level = .error ∧
            last.attrs = [(lit "error", .str e)]
        | none => x.2 = 0 := by
  unfold whole
  have hb := C95_boot W text d args env w
  match h : (boot d args env w).1 with
  | .usage =>
    rw [h] at hb
    rw [show (mainLogged W text d args env w).1 = _ from hb.2]
    exact ⟨rfl, rfl⟩
  | .noUnit e =>
    unfold boot at h
    unfold mainLogged
    cases hp : parseArgs Flags.start args with
    | none => rw [hp] at h; cases h
    | some f =>
      rw [hp] at h
      simp only at h ⊢
      have e' := connectLogged_erase d (find f env .mode) (find f env .target) w
      generalize connectLogged d (find f env .mode) (find f env .target) w = x at e'
      obtain ⟨⟨⟨c, er⟩, w'⟩, recs⟩ := x
      rw [← e'] at h
      cases er with
      | some er => cases h; exact ⟨rfl, rfl, _, _, rfl, rfl, rfl⟩
      | none => cases h
  | .serving conn listen debug =>
    rw [h] at hb
    refine (hb.2.1).seq fun as x hx => ?_
    rw [hx]
    simp only
    cases hs : served listen with
    | some e => exact ⟨rfl, _, _, rfl, rfl, rfl⟩
    | none => rfl

/-- **C95** What the log says about a cache while the server starts tells what is served: if it does not
name the cache, then, in every interleaving, whatever a Get request of that cache answers has been said
by the unit. If it does, the unit has not said anything that could be served. -/
theorem C95_told {S : Setup σ} (hL : S.line.NoPanic) (W : Wording) (line : σ) (clock : Int)
    (adv : List Nat) (id : CacheId) :
    ∃ recs, (startCachesLogged W).run S.line (World.initial line clock adv) =
        (some recs, started S.line line clock adv) ∧
      ((∃ r ∈ recs, r.level = .error ∧ Names id r) → lastGood id (started S.line line clock adv).io = none) ∧
      ((∀ r ∈ recs, r.level = .error → ¬ Names id r) →
        ∀ {s : Sys σ}, Reachable S (Sys.initial (started S.line line clock adv)) s →
        ∀ {i : Nat} {r : Resp}, Answered s i (getCall id) r →
        ∃ v, Told id v (started S.line line clock adv).io s.sh.trace ∧ r = getAnswer id v) := by
  obtain ⟨recs, w', h1, h2, -, h4⟩ := popAll_run hL W startOrder (World.initial line clock adv) (by decide)
  have hrun : (startCachesLogged W).run S.line (World.initial line clock adv) =
      (some (info "Populating caches" [] :: recs ++ [info "Cache worker started" []]), w') := by
    rw [startCachesLogged, updateCachesLogged_eq, run_bind_some h1]; rfl
  have hw : started S.line line clock adv = w' := by
    rw [started, ← startCachesLogged_erase W, run_bind_some hrun]; rfl
  have hid : id ∈ startOrder := by cases id <;> decide
  have mem : ∀ r, r ∈ info "Populating caches" [] :: recs ++ [info "Cache worker started" []] →
      r.level = .error → r ∈ recs := by
    intro r hr he
    simp only [List.cons_append, List.mem_cons, List.mem_append, List.not_mem_nil, or_false] at hr
    rcases hr with rfl | hr | rfl
    · cases he
    · exact hr
    · cases he
  refine ⟨_, by rw [hw]; exact hrun, ?_, ?_⟩
  · rintro ⟨r, hr, he, hx⟩
    rw [hw]
    rcases h4 id hid with ⟨-, h5⟩ | ⟨h5, -⟩
    · exact h5
    · exact absurd hx (h5 r (mem r hr he))
  · intro hno s hs i r ha
    refine C73_told_partial hL hs ha ?_
    rw [hw]
    rcases h4 id hid with ⟨⟨r, hr, hx⟩, -⟩ | ⟨-, h5⟩
    · exact absurd hx (hno r (by simp [hr]) (h2 r hr).1)
    · exact h5

/-! ## Standard output -/

theorem banner_lines {v g b o : Bytes} (hv : 10 ∉ v) (hg : 10 ∉ g) (hb : 10 ∉ b) (ho : 10 ∉ o)
    (t : Bytes) : ∃ l₁ l₂ l₃, linesOf (banner v g b o ++ t) =
      (linesOf t).map fun ls => l₁ :: [] :: l₂ :: l₃ :: [] :: ls := by
  refine ⟨lit "Comfo API " ++ v ++ lit " - home automation endpoint for ComfoAir-based ventilation units",
    lit "Git Revision: " ++ g, lit "Build time: " ++ b ++ lit ", with " ++ o, ?_⟩
  have e : banner v g b o ++ t =
      (lit "Comfo API " ++ v ++ lit " - home automation endpoint for ComfoAir-based ventilation units") ++
        10 :: ([] ++ 10 :: ((lit "Git Revision: " ++ g) ++ 10 ::
        ((lit "Build time: " ++ b ++ lit ", with " ++ o) ++ 10 :: ([] ++ 10 :: t)))) := by
    have e1 : lit " - home automation endpoint for ComfoAir-based ventilation units\n\n" =
        lit " - home automation endpoint for ComfoAir-based ventilation units" ++ [10, 10] := by
      decide +kernel
    have e2 : lit "\nBuild time: " = 10 :: lit "Build time: " := by decide +kernel
    have e3 : lit "\n\n" = [10, 10] := by decide +kernel
    simp only [banner, e1, e2, e3, List.append_assoc, List.cons_append, List.nil_append]
  have n1 : 10 ∉ lit "Comfo API " ∧
      10 ∉ lit " - home automation endpoint for ComfoAir-based ventilation units" ∧
      10 ∉ lit "Git Revision: " ∧ 10 ∉ lit "Build time: " ∧ 10 ∉ lit ", with " := by decide +kernel
  rw [e, lines_cons (by simp [n1, hv]), lines_cons (by simp), lines_cons (by simp [n1, hg]),
    lines_cons (by simp [n1, hb, ho]), lines_cons (by simp)]
  cases linesOf t <;> rfl

/-- **C95** The first five lines of the output are the version, and the others are the log. -/
theorem C95_output (U : Unicode) (debug : Bool) (rs : List (Bytes × Record))
    (h : ∀ x ∈ rs, Stamp x.1 ∧ ∀ a ∈ x.2.attrs, InRange a.2) {v g b o : Bytes}
    (hv : 10 ∉ v) (hg : 10 ∉ g) (hb : 10 ∉ b) (ho : 10 ∉ o) :
    ∃ ts ls, linesOf (banner v g b o ++ output U debug rs) = some ts ∧
      (ts.drop 5).mapM readLine = some ls ∧ Logs debug rs ls := by
  obtain ⟨ls, h1, h2⟩ := C92_log U debug rs h
  obtain ⟨l₁, l₂, l₃, h3⟩ := banner_lines hv hg hb ho (output U debug rs)
  rw [h3]
  unfold readLog at h1
  cases hl : linesOf (output U debug rs) with
  | none => rw [hl] at h1; cases h1
  | some ts => rw [hl] at h1; exact ⟨_, ls, rfl, h1, h2⟩

/-! ## The hypotheses are met -/

/-- Dialling works, serial devices cannot be opened. -/
def sampleDialer : Dialer Nat Nat Nat := fun d n =>
  match d with
  | .tcp _ => ((some 7, none), n + 1)
  | .serial .. => ((none, some 13), n + 1)

/-- C95: the three ways the start can end. -/
example : (boot sampleDialer ["--mode=tcp".toList, "--listen=:80".toList] (fun _ => none) 0).1 =
      .serving (some 7) ":80".toList false ∧
    (boot sampleDialer [] (fun _ => none) 0).1 = .noUnit (.openPort "/dev/ttyUSB0".toList 13) ∧
    (boot sampleDialer ["--mode=udp".toList] (fun _ => none) 0).1 = .noUnit (.unsupported "udp".toList) ∧
    (boot sampleDialer ["--speed=1".toList] (fun _ => none) 0).1 = .usage := by
  decide +kernel

/-- C95: the log of a start with a unit that answers all questions. -/
example : (((mainLogged toyWording (fun _ => []) sampleDialer ["--mode=tcp".toList] (fun _ => none) 0).1.run
      demo.line (World.initial 0 7 [])).1.map fun x => (x.1.map fun r => (r.level, r.msg), x.2)) =
    some ([(.debug, lit "Debug logging enabled"), (.info, lit "Connecting to the unit over tcp"),
      (.info, lit "Connection established!"), (.info, lit "Populating caches"),
      (.info, lit "Cache worker started"), (.info, lit "API listening")],
      .listens "[::]:3094".toList) := by
  decide +kernel

/-- C95: the address is in use. -/
example : (((whole toyWording (fun _ => []) sampleDialer ["--mode=tcp".toList] (fun _ => none) 0
        fun _ => some (lit "in use")).run demo.line (World.initial 0 7 [])).1.map fun x =>
      (x.1.getLast?.map fun r => (r.level, r.msg), x.2)) =
    some (some (.error, lit "ListenAndServe"), 1) := by
  decide +kernel

/-- C95: the unit does not answer. -/
example : (((startCachesLogged toyWording).run deaf.line (World.initial () 7 [])).1.map fun rs =>
      rs.map fun r => (r.level, r.msg)) =
    some [(.info, lit "Populating caches"),
      (.error, lit "BootInfoCache.Update() - Updating boot info cache"),
      (.error, lit "BypassCache.Update() - Updating bypass cache"),
      (.error, lit "TempCache.Update() - Updating temperature cache"),
      (.error, lit "FanCache.Update() - Updating fan cache"),
      (.error, lit "FanProfilesCache.Update() - Updating fan profiles cache"),
      (.error, lit "Errors.Update() - Updating errors cache"),
      (.info, lit "Cache worker started")] := by
  decide +kernel

end Comfo.Props
