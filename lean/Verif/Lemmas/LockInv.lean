import Verif.Lemmas.LockRules
/-! Helper lemmas: the invariant of the running system. -/
namespace Comfo
open Spec

structure Glob1 (g : Tid → G1) (sh : Shared σ) : Prop where
  held_iff : ∀ t l b, (l, b) ∈ (g t).held ↔ ⟨l, b, t⟩ ∈ sh.held
  nodup : sh.held.Nodup
  excl : ∀ h ∈ sh.held, ∀ h' ∈ sh.held, h.lock = h'.lock → h.excl = true → h = h'
  tx_pm : ∀ t, (g t).tx ≠ [] → (.pm, true) ∈ (g t).held
  tx_part : ∀ t, PartOfQuery (g t).tx
  serial : ∃ (blocks : List (Tid × List IoEv)) (t₀ : Tid), (∀ b ∈ blocks, WholeQuery b.2) ∧
    (∀ t, t ≠ t₀ → (g t).tx = []) ∧
    lineEvents sh.trace = blocks.flatMap (fun b => byTid b.1 b.2) ++ byTid t₀ (g t₀).tx
  isWorker : ∀ t, (g t).isWorker = true ↔ t = .worker
  workerStrict : ∀ id, (g .worker).strict id = true
  workerAwait : (g .worker).await = none
  clientOwes : ∀ i, (g (.client i)).owes = none
  one : ∀ i j t u, (g (.client i)).await = some t → (g (.client j)).await = some u → i = j
  await_owes : ∀ i t, (g (.client i)).await = some t → (g .worker).owes = some t
  owes_await : ∀ t, (g .worker).owes = some t → ∃ i, (g (.client i)).await = some t

/-- The ghost states agree in everything `Glob1` is about. -/
structure SameCore (g g' : G1) : Prop where
  held : g'.held = g.held
  tx : g'.tx = g.tx
  await : g'.await = g.await
  owes : g'.owes = g.owes
  isWorker : g'.isWorker = g.isWorker
  strict : g'.strict = g.strict

theorem sameCore_refl (g : G1) : SameCore g g := ⟨rfl, rfl, rfl, rfl, rfl, rfl⟩

theorem sameCore_upd {g : Tid → G1} {t : Tid} {x : G1} (h : SameCore (g t) x) (u : Tid) :
    SameCore (g u) (upd g t x u) := by
  by_cases e : u = t
  · subst e; rw [upd_same]; exact h
  · rw [upd_other _ _ e]; exact sameCore_refl _

theorem glob_congr {g g' : Tid → G1} {sh sh' : Shared σ} (h : Glob1 g sh)
    (hg : ∀ t, SameCore (g t) (g' t)) (hh : sh'.held = sh.held)
    (hl : lineEvents sh'.trace = lineEvents sh.trace) : Glob1 g' sh' where
  held_iff t l b := by rw [(hg t).held, hh]; exact h.held_iff t l b
  nodup := hh ▸ h.nodup
  excl := hh ▸ h.excl
  tx_pm t := by rw [(hg t).held, (hg t).tx]; exact h.tx_pm t
  tx_part t := by rw [(hg t).tx]; exact h.tx_part t
  serial := by
    obtain ⟨blocks, t₀, h1, h2, h3⟩ := h.serial
    refine ⟨blocks, t₀, h1, fun t ht => (hg t).tx ▸ h2 t ht, ?_⟩
    rw [hl, (hg t₀).tx]; exact h3
  isWorker t := by rw [(hg t).isWorker]; exact h.isWorker t
  workerStrict := by rw [(hg _).strict]; exact h.workerStrict
  workerAwait := by rw [(hg _).await]; exact h.workerAwait
  clientOwes i := by rw [(hg _).owes]; exact h.clientOwes i
  one i j t u := by rw [(hg _).await, (hg _).await]; exact h.one i j t u
  await_owes i t := by rw [(hg _).await, (hg _).owes]; exact h.await_owes i t
  owes_await t := by
    rw [(hg _).owes]
    intro ht
    obtain ⟨i, hi⟩ := h.owes_await t ht
    exact ⟨i, by rw [(hg _).await]; exact hi⟩

theorem lineEvents_append (a b : List (Tid × Act)) :
    lineEvents (a ++ b) = lineEvents a ++ lineEvents b := by simp [lineEvents]

theorem byTid_append (t : Tid) (a b : List IoEv) : byTid t (a ++ b) = byTid t a ++ byTid t b := by
  simp [byTid]

theorem part_nil : PartOfQuery [] :=
  ⟨_, 0, [], false, _, .writeFailed 0 .ack⟩

/-- Changing what one goroutine holds and has sent, but nothing else. -/
theorem glob_local {g : Tid → G1} {sh sh' : Shared σ} {t : Tid} {x : G1} (h : Glob1 g sh)
    (ha : x.await = (g t).await) (ho : x.owes = (g t).owes) (hw : x.isWorker = (g t).isWorker)
    (hs : x.strict = (g t).strict)
    (held_iff : ∀ u l b, (l, b) ∈ (upd g t x u).held ↔ ⟨l, b, u⟩ ∈ sh'.held)
    (nodup : sh'.held.Nodup)
    (excl : ∀ h ∈ sh'.held, ∀ h' ∈ sh'.held, h.lock = h'.lock → h.excl = true → h = h')
    (tx_pm : x.tx ≠ [] → (.pm, true) ∈ x.held)
    (tx_part : PartOfQuery x.tx)
    (serial : ∃ (blocks : List (Tid × List IoEv)) (t₀ : Tid), (∀ b ∈ blocks, WholeQuery b.2) ∧
      (∀ u, u ≠ t₀ → (upd g t x u).tx = []) ∧
      lineEvents sh'.trace =
        blocks.flatMap (fun b => byTid b.1 b.2) ++ byTid t₀ (upd g t x t₀).tx) :
    Glob1 (upd g t x) sh' := by
  have e : ∀ {β : Type} (f : G1 → β), f x = f (g t) → ∀ u, f (upd g t x u) = f (g u) := by
    intro β f hf u
    by_cases hu : u = t
    · subst hu; rw [upd_same, hf]
    · rw [upd_other _ _ hu]
  have ea := e (·.await) ha
  have eo := e (·.owes) ho
  have ew := e (·.isWorker) hw
  have es := e (·.strict) hs
  exact {
    held_iff := held_iff
    nodup := nodup
    excl := excl
    tx_pm := by
      intro u
      by_cases hu : u = t
      · subst hu; rw [upd_same]; exact tx_pm
      · rw [upd_other _ _ hu]; exact h.tx_pm u
    tx_part := by
      intro u
      by_cases hu : u = t
      · subst hu; rw [upd_same]; exact tx_part
      · rw [upd_other _ _ hu]; exact h.tx_part u
    serial := serial
    isWorker := fun u => by rw [ew]; exact h.isWorker u
    workerStrict := by rw [es]; exact h.workerStrict
    workerAwait := by rw [ea]; exact h.workerAwait
    clientOwes := fun i => by rw [eo]; exact h.clientOwes i
    one := fun i j t u => by rw [ea, ea]; exact h.one i j t u
    await_owes := fun i t => by rw [ea, eo]; exact h.await_owes i t
    owes_await := fun t => by
      rw [eo]
      intro ht
      obtain ⟨i, hi⟩ := h.owes_await t ht
      exact ⟨i, by rw [ea]; exact hi⟩ }

/-- The traffic stays a series of whole queries when no traffic is added. -/
theorem serial_quiet {g : Tid → G1} {sh sh' : Shared σ} {t : Tid} {x : G1} (h : Glob1 g sh)
    (hx : x.tx = (g t).tx) (hl : lineEvents sh'.trace = lineEvents sh.trace) :
    ∃ (blocks : List (Tid × List IoEv)) (t₀ : Tid), (∀ b ∈ blocks, WholeQuery b.2) ∧
      (∀ u, u ≠ t₀ → (upd g t x u).tx = []) ∧
      lineEvents sh'.trace =
        blocks.flatMap (fun b => byTid b.1 b.2) ++ byTid t₀ (upd g t x t₀).tx := by
  have e : ∀ u, (upd g t x u).tx = (g u).tx := by
    intro u
    by_cases hu : u = t
    · subst hu; rw [upd_same, hx]
    · rw [upd_other _ _ hu]
  obtain ⟨blocks, t₀, h1, h2, h3⟩ := h.serial
  exact ⟨blocks, t₀, h1, fun u hu => by rw [e]; exact h2 u hu, by rw [hl, e]; exact h3⟩

/-- The traffic of the goroutine that holds `pm` grows. -/
theorem serial_grow {g : Tid → G1} {sh sh' : Shared σ} {t : Tid} {x : G1} {ev : IoEv}
    (h : Glob1 g sh) (hp : (.pm, true) ∈ (g t).held) (hx : x.tx = (g t).tx ++ [ev])
    (hl : lineEvents sh'.trace = lineEvents sh.trace ++ [(t, ev)]) :
    ∃ (blocks : List (Tid × List IoEv)) (t₀ : Tid), (∀ b ∈ blocks, WholeQuery b.2) ∧
      (∀ u, u ≠ t₀ → (upd g t x u).tx = []) ∧
      lineEvents sh'.trace =
        blocks.flatMap (fun b => byTid b.1 b.2) ++ byTid t₀ (upd g t x t₀).tx := by
  have others : ∀ u, u ≠ t → (g u).tx = [] := by
    intro u hu
    by_cases e : (g u).tx = []
    · exact e
    · have h1 := (h.held_iff u _ _).1 (h.tx_pm u e)
      have h2 := (h.held_iff t _ _).1 hp
      have := h.excl _ h1 _ h2 rfl rfl
      simp only [Held.mk.injEq, true_and] at this
      exact absurd this hu
  obtain ⟨blocks, t₀, h1, h2, h3⟩ := h.serial
  refine ⟨blocks, t, h1, fun u hu => by rw [upd_other _ _ hu]; exact others u hu, ?_⟩
  rw [hl, h3, upd_same, hx, byTid_append]
  by_cases e : t₀ = t
  · subst e; simp [byTid]
  · rw [others t₀ e, h2 t (Ne.symm e)]; simp [byTid]

theorem glob1_act {L : Line σ} {g : Tid → G1} {t : Tid} {a : Act} {sh sh' : Shared σ}
    (h : Glob1 g sh) (ha : Acts L t a sh sh') (hm : must1 (g t) a) :
    Glob1 (upd g t (post1 (g t) a)) sh' := by
  cases ha with
  | @lock l _ hl =>
    refine glob_local h rfl rfl rfl rfl ?_ ?_ ?_ ?_ (h.tx_part t)
      (serial_quiet h rfl (by simp [lineEvents]))
    · intro u l' b'
      by_cases hu : u = t
      · subst hu
        rw [upd_same]
        simp only [post1, G1.push, List.mem_cons, Prod.mk.injEq, Held.mk.injEq, and_true]
        rw [h.held_iff]
      · rw [upd_other _ _ hu, h.held_iff]
        simp [hu]
    · exact List.nodup_cons.mpr ⟨fun hmem => hl _ hmem rfl, h.nodup⟩
    · intro a ha b hb hab hx
      rcases List.mem_cons.mp ha with rfl | ha <;> rcases List.mem_cons.mp hb with rfl | hb
      · rfl
      · exact absurd hab.symm (hl _ hb)
      · exact absurd hab (hl _ ha)
      · exact h.excl a ha b hb hab hx
    · intro htx
      exact List.mem_cons_of_mem _ (h.tx_pm t htx)
  | @rlock l _ hl =>
    have hnew : (⟨l, false, t⟩ : Held) ∉ sh.held := by
      intro hmem
      exact free_not_mem hm.2.1 ((h.held_iff t l false).2 hmem)
    refine glob_local h rfl rfl rfl rfl ?_ ?_ ?_ ?_ (h.tx_part t)
      (serial_quiet h rfl (by simp [lineEvents]))
    · intro u l' b'
      by_cases hu : u = t
      · subst hu
        rw [upd_same]
        simp only [post1, G1.push, List.mem_cons, Prod.mk.injEq, Held.mk.injEq, and_true]
        rw [h.held_iff]
      · rw [upd_other _ _ hu, h.held_iff]
        simp [hu]
    · exact List.nodup_cons.mpr ⟨hnew, h.nodup⟩
    · intro a ha b hb hab hx
      rcases List.mem_cons.mp ha with rfl | ha <;> rcases List.mem_cons.mp hb with rfl | hb
      · rfl
      · simp at hx
      · exact absurd (hl a ha hab) (by simp [hx])
      · exact h.excl a ha b hb hab hx
    · intro htx
      exact List.mem_cons_of_mem _ (h.tx_pm t htx)
  | @unlock l _ hl =>
    have hheld : ∀ u l' b', (l', b') ∈ (upd g t (post1 (g t) (.unlock l)) u).held ↔
        (⟨l', b', u⟩ : Held) ∈ sh.held.erase ⟨l, true, t⟩ := by
      intro u l' b'
      rw [List.Nodup.mem_erase_iff h.nodup]
      by_cases hu : u = t
      · subst hu
        rw [upd_same]
        have : (post1 (g u) (.unlock l)).held = (g u).held.filter (· ≠ (l, true)) := by
          simp only [post1]; split <;> rfl
        rw [this, List.mem_filter, h.held_iff]
        cases b' <;> simp [and_comm]
      · rw [upd_other _ _ hu, h.held_iff]
        simp [hu]
    have hex : ∀ a ∈ sh.held.erase ⟨l, true, t⟩, ∀ b ∈ sh.held.erase ⟨l, true, t⟩,
        a.lock = b.lock → a.excl = true → a = b :=
      fun a ha b hb => h.excl a (List.mem_of_mem_erase ha) b (List.mem_of_mem_erase hb)
    by_cases e : l = .pm
    · subst e
      refine glob_local h rfl rfl rfl rfl hheld (h.nodup.erase _) hex ?_ part_nil ?_
      · intro hne; exact absurd rfl hne
      · obtain ⟨blocks, t₀, h1, h2, h3⟩ := h.serial
        have hq : lineEvents (sh.trace ++ [(t, Act.unlock .pm)]) = lineEvents sh.trace := by
          simp [lineEvents_append, lineEvents]
        by_cases ht : t = t₀
        · subst ht
          by_cases hn : (g t).tx = []
          · refine ⟨blocks, t, h1, fun u hu => by rw [upd_other _ _ hu]; exact h2 u hu, ?_⟩
            rw [upd_same]
            show lineEvents (sh.trace ++ [(t, Act.unlock .pm)]) = _
            rw [hq, h3, hn]; rfl
          · refine ⟨blocks ++ [(t, (g t).tx)], t, ?_,
              fun u hu => by rw [upd_other _ _ hu]; exact h2 u hu, ?_⟩
            · intro b hb
              rcases List.mem_append.mp hb with hb | hb
              · exact h1 b hb
              · rw [List.mem_singleton.mp hb]
                exact (hm.2.2 rfl).resolve_left hn
            · rw [upd_same]
              show lineEvents (sh.trace ++ [(t, Act.unlock .pm)]) = _
              rw [hq, h3, List.flatMap_append]
              simp [post1, byTid]
        · refine ⟨blocks, t₀, h1, ?_, ?_⟩
          · intro u hu
            by_cases hut : u = t
            · subst hut; rw [upd_same]; rfl
            · rw [upd_other _ _ hut]; exact h2 u hu
          · rw [upd_other _ _ (Ne.symm ht)]
            show lineEvents (sh.trace ++ [(t, Act.unlock .pm)]) = _
            rw [hq, h3]
    · have ep : post1 (g t) (.unlock l) =
          { g t with held := (g t).held.filter (· ≠ (l, true)), recd := false, done := [],
                     ref := none } := by
        simp only [post1, if_neg e]
      rw [ep] at hheld ⊢
      refine glob_local h rfl rfl rfl rfl hheld (h.nodup.erase _) hex ?_ (h.tx_part t)
        (serial_quiet h rfl (by simp [lineEvents]))
      intro htx
      refine List.mem_filter.mpr ⟨h.tx_pm t htx, ?_⟩
      simp [Ne.symm e]
  | @runlock l _ hl =>
    refine glob_local h rfl rfl rfl rfl ?_ (h.nodup.erase _) ?_ ?_ (h.tx_part t)
      (serial_quiet h rfl (by simp [lineEvents]))
    · intro u l' b'
      rw [List.Nodup.mem_erase_iff h.nodup]
      by_cases hu : u = t
      · subst hu
        rw [upd_same]
        show (l', b') ∈ (g u).held.filter (· ≠ (l, false)) ↔ _
        rw [List.mem_filter, h.held_iff]
        cases b' <;> simp [and_comm]
      · rw [upd_other _ _ hu, h.held_iff]
        simp [hu]
    · exact fun a ha b hb => h.excl a (List.mem_of_mem_erase ha) b (List.mem_of_mem_erase hb)
    · intro htx
      exact List.mem_filter.mpr ⟨h.tx_pm t htx, by simp⟩
  | @wrote bs r _ _ hw =>
    refine glob_local h rfl rfl rfl rfl ?_ h.nodup h.excl (fun _ => hm.2.1) hm.2.2.1
      (serial_grow (ev := .wrote bs r) h hm.2.1 rfl (by simp [lineEvents]))
    intro u l' b'
    rw [← h.held_iff]
    by_cases hu : u = t
    · subst hu; rw [upd_same]; rfl
    · rw [upd_other _ _ hu]
  | @got e _ q err _ hr =>
    refine glob_local h rfl rfl rfl rfl ?_ h.nodup h.excl (fun _ => hm.2.1) hm.2.2
      (serial_grow (ev := .got e (q, err)) h hm.2.1 rfl (by simp [lineEvents]))
    intro u l' b'
    rw [← h.held_iff]
    by_cases hu : u = t
    · subst hu; rw [upd_same]; rfl
    · rw [upd_other _ _ hu]
  | now =>
    exact glob_congr h (sameCore_upd ⟨rfl, rfl, rfl, rfl, rfl, rfl⟩) rfl
      (by simp [lineEvents])
  | sleep =>
    exact glob_congr h (sameCore_upd ⟨rfl, rfl, rfl, rfl, rfl, rfl⟩) rfl
      (by simp [lineEvents])
  | load =>
    exact glob_congr h (sameCore_upd ⟨rfl, rfl, rfl, rfl, rfl, rfl⟩) rfl
      (by simp [lineEvents])
  | store =>
    exact glob_congr h (sameCore_upd ⟨rfl, rfl, rfl, rfl, rfl, rfl⟩) rfl
      (by simp [lineEvents])
  | note =>
    exact glob_congr h (sameCore_upd ⟨rfl, rfl, rfl, rfl, rfl, rfl⟩) rfl
      (by simp [lineEvents])

theorem glob1_born {g : Tid → G1} {sh : Shared σ} {c : Call} {i : Nat} (h : Glob1 g sh)
    (hi : g (.client i) = {}) : Glob1 (upd g (.client i) (born1 c)) sh where
  held_iff := by
    intro u l b
    rw [← h.held_iff]
    by_cases hu : u = .client i
    · subst hu; rw [upd_same, hi]; rfl
    · rw [upd_other _ _ hu]
  nodup := h.nodup
  excl := h.excl
  tx_pm := by
    intro u
    by_cases hu : u = .client i
    · subst hu; rw [upd_same]; intro hn; exact absurd rfl hn
    · rw [upd_other _ _ hu]; exact h.tx_pm u
  tx_part := by
    intro u
    by_cases hu : u = .client i
    · subst hu; rw [upd_same]; exact part_nil
    · rw [upd_other _ _ hu]; exact h.tx_part u
  serial := serial_quiet h (by rw [hi]; rfl) rfl
  isWorker := by
    intro u
    by_cases hu : u = .client i
    · subst hu; rw [upd_same]; simp [born1]
    · rw [upd_other _ _ hu]; exact h.isWorker u
  workerStrict := by rw [upd_other _ _ (by simp)]; exact h.workerStrict
  workerAwait := by rw [upd_other _ _ (by simp)]; exact h.workerAwait
  clientOwes := by
    intro j
    by_cases hj : Tid.client j = .client i
    · rw [hj, upd_same]; rfl
    · rw [upd_other _ _ hj]; exact h.clientOwes j
  one := by
    have e : ∀ u, (upd g (.client i) (born1 c) u).await = (g u).await := by
      intro u
      by_cases hu : u = .client i
      · subst hu; rw [upd_same, hi]; rfl
      · rw [upd_other _ _ hu]
    intro j k t u; rw [e, e]; exact h.one j k t u
  await_owes := by
    intro j t
    rw [upd_other g _ (show Tid.worker ≠ .client i by simp)]
    by_cases hj : Tid.client j = .client i
    · rw [hj, upd_same]; intro hh; cases hh
    · rw [upd_other _ _ hj]; exact h.await_owes j t
  owes_await := by
    intro t
    rw [upd_other _ _ (by simp)]
    intro ht
    obtain ⟨j, hj⟩ := h.owes_await t ht
    refine ⟨j, ?_⟩
    by_cases e : Tid.client j = .client i
    · rw [e, hi] at hj; cases hj
    · rw [upd_other _ _ e]; exact hj

/-- Nothing but the channel fields changes. -/
theorem glob_channels {g g' : Tid → G1} {sh sh' : Shared σ} (h : Glob1 g sh)
    (held : ∀ t, (g' t).held = (g t).held) (tx : ∀ t, (g' t).tx = (g t).tx)
    (isWorker : ∀ t, (g' t).isWorker = (g t).isWorker)
    (strict : (g' .worker).strict = (g .worker).strict)
    (hh : sh'.held = sh.held) (hl : lineEvents sh'.trace = lineEvents sh.trace)
    (workerAwait : (g' .worker).await = none)
    (clientOwes : ∀ i, (g' (.client i)).owes = none)
    (one : ∀ i j t u, (g' (.client i)).await = some t → (g' (.client j)).await = some u → i = j)
    (await_owes : ∀ i t, (g' (.client i)).await = some t → (g' .worker).owes = some t)
    (owes_await : ∀ t, (g' .worker).owes = some t → ∃ i, (g' (.client i)).await = some t) :
    Glob1 g' sh' where
  held_iff t l b := by rw [held, hh]; exact h.held_iff t l b
  nodup := hh ▸ h.nodup
  excl := hh ▸ h.excl
  tx_pm t := by rw [held, tx]; exact h.tx_pm t
  tx_part t := by rw [tx]; exact h.tx_part t
  serial := by
    obtain ⟨blocks, t₀, h1, h2, h3⟩ := h.serial
    refine ⟨blocks, t₀, h1, fun t ht => tx t ▸ h2 t ht, ?_⟩
    rw [hl, tx]; exact h3
  isWorker t := by rw [isWorker]; exact h.isWorker t
  workerStrict := strict ▸ h.workerStrict
  workerAwait := workerAwait
  clientOwes := clientOwes
  one := one
  await_owes := await_owes
  owes_await := owes_await

theorem not_awaiting {g : Tid → G1} {sh : Shared σ} (h : Glob1 g sh)
    (hw : (g .worker).owes = none) (j : Nat) : (g (.client j)).await = none := by
  match hj : (g (.client j)).await with
  | none => rfl
  | some t => rw [h.await_owes j t hj] at hw; cases hw

theorem glob1_send {g : Tid → G1} {sh : Shared σ} {i : Nat} {t : Int} (h : Glob1 g sh)
    (hw : g .worker = idle1) (_hm : must1 (g (.client i)) (.sendFlush t)) :
    Glob1 (upd (upd g (.client i) (post1 (g (.client i)) (.sendFlush t))) .worker (flushing1 t))
      { sh with trace := sh.trace ++ [(.client i, .sendFlush t)] } := by
  have na := not_awaiting h (by rw [hw]; rfl)
  have eo : ∀ j, upd (upd g (.client i) (post1 (g (.client i)) (.sendFlush t))) .worker
      (flushing1 t) (.client j) = if j = i then { g (.client i) with await := some t }
        else g (.client j) := by
    intro j
    rw [upd_other _ _ (by simp)]
    by_cases e : j = i
    · subst e; rw [upd_same, if_pos rfl]; rfl
    · rw [upd_other _ _ (by simpa using e), if_neg e]
  refine glob_channels h ?_ ?_ ?_ ?_ rfl (by simp [lineEvents]) ?_ ?_ ?_ ?_ ?_
  · intro u
    cases u with
    | worker => rw [upd_same, hw]; rfl
    | client j => rw [eo]; split <;> simp_all
  · intro u
    cases u with
    | worker => rw [upd_same, hw]; rfl
    | client j => rw [eo]; split <;> simp_all
  · intro u
    cases u with
    | worker => rw [upd_same, hw]; rfl
    | client j => rw [eo]; split <;> simp_all
  · rw [upd_same, hw]; rfl
  · rw [upd_same]; rfl
  · intro j; rw [eo]; split
    · exact h.clientOwes i
    · exact h.clientOwes j
  · intro j k a b
    rw [eo, eo]
    by_cases e1 : j = i <;> by_cases e2 : k = i
    · intro _ _; rw [e1, e2]
    · rw [if_neg e2, na k]; intro _ hh; cases hh
    · rw [if_neg e1, na j]; intro hh; cases hh
    · rw [if_neg e1, na j]; intro hh; cases hh
  · intro j a
    rw [eo, upd_same]
    by_cases e1 : j = i
    · rw [if_pos e1]; intro hh; cases hh; rfl
    · rw [if_neg e1, na j]; intro hh; cases hh
  · intro a ha
    rw [upd_same] at ha
    cases ha
    exact ⟨i, by rw [eo, if_pos rfl]⟩

theorem glob1_recv {g : Tid → G1} {sh : Shared σ} {i : Nat} {b : Bool} (h : Glob1 g sh)
    (_hm : must1 (g .worker) (.sendFlushed b))
    (hr : must1 (g (.client i)) (.recvFlushed b)) :
    Glob1 (upd (upd g (.client i) (post1 (g (.client i)) (.recvFlushed b))) .worker
        (post1 (g .worker) (.sendFlushed b)))
      { sh with world := sh.world.log (.answered b)
                trace := sh.trace ++ [(.worker, .sendFlushed b), (.client i, .recvFlushed b)] } := by
  have eo : ∀ j, upd (upd g (.client i) (post1 (g (.client i)) (.recvFlushed b))) .worker
      (post1 (g .worker) (.sendFlushed b)) (.client j) =
        if j = i then { g (.client i) with await := none, served := (g (.client i)).await }
        else g (.client j) := by
    intro j
    rw [upd_other _ _ (by simp)]
    by_cases e : j = i
    · subst e; rw [upd_same, if_pos rfl]; rfl
    · rw [upd_other _ _ (by simpa using e), if_neg e]
  have na : ∀ j, j ≠ i → (g (.client j)).await = none := by
    intro j hj
    match ha : (g (.client j)).await, hb : (g (.client i)).await with
    | none, _ => rfl
    | some u, none => exact absurd hb hr.1
    | some u, some v => exact absurd (h.one j i u v ha hb) hj
  refine glob_channels h ?_ ?_ ?_ ?_ rfl (by simp [lineEvents]) ?_ ?_ ?_ ?_ ?_
  · intro u
    cases u with
    | worker => rw [upd_same]; rfl
    | client j => rw [eo]; split <;> simp_all
  · intro u
    cases u with
    | worker => rw [upd_same]; rfl
    | client j => rw [eo]; split <;> simp_all
  · intro u
    cases u with
    | worker => rw [upd_same]; rfl
    | client j => rw [eo]; split <;> simp_all
  · rw [upd_same]; rfl
  · rw [upd_same]; exact h.workerAwait
  · intro j; rw [eo]; split
    · exact h.clientOwes i
    · exact h.clientOwes j
  · intro j k x y
    rw [eo, eo]
    by_cases e1 : j = i
    · rw [if_pos e1]; intro hh; cases hh
    · rw [if_neg e1, na j e1]; intro hh; cases hh
  · intro j x
    rw [eo]
    by_cases e1 : j = i
    · rw [if_pos e1]; intro hh; cases hh
    · rw [if_neg e1, na j e1]; intro hh; cases hh
  · intro x hx
    rw [upd_same] at hx
    cases hx

def K1 (c : Call) (g : G1) : Prop :=
  g.strict = c.readsLocked ∧ g.raw = c.sendsRaw ∧ g.job = c.job

theorem k1_post {c : Call} {g : G1} {a : Act} (h : K1 c g) : K1 c (post1 g a) := by
  obtain ⟨h1, h2, h3⟩ := h
  cases a <;> try exact ⟨h1, h2, h3⟩
  · simp only [post1]; split <;> exact ⟨h1, h2, h3⟩

theorem glob1_start (w : World σ) (g : Tid → G1) (hw : g .worker = idle1)
    (hc : ∀ i, g (.client i) = {}) : Glob1 g ({ world := w } : Shared σ) where
  held_iff := by
    intro u l b
    cases u with
    | worker => rw [hw]; simp [idle1]
    | client i => rw [hc]; simp
  nodup := List.nodup_nil
  excl := by intro h hh; cases hh
  tx_pm := by
    intro u hu
    cases u with
    | worker => rw [hw] at hu; exact absurd rfl hu
    | client i => rw [hc] at hu; exact absurd rfl hu
  tx_part := by
    intro u
    cases u with
    | worker => rw [hw]; exact part_nil
    | client i => rw [hc]; exact part_nil
  serial := ⟨[], .worker, by simp, by
    intro u hu
    cases u with
    | worker => exact absurd rfl hu
    | client i => rw [hc], by rw [hw]; rfl⟩
  isWorker := by
    intro u
    cases u with
    | worker => rw [hw]; simp [idle1]
    | client i => rw [hc]; simp
  workerStrict := fun _ => by rw [hw]; rfl
  workerAwait := by rw [hw]; rfl
  clientOwes := fun i => by rw [hc]
  one := by intro i j t u h; rw [hc] at h; cases h
  await_owes := by intro i t h; rw [hc] at h; cases h
  owes_await := by intro t h; rw [hw] at h; cases h

theorem may1_act {L : Line σ} {t : Tid} {a : Act} {sh sh' : Shared σ} {g : G1}
    (h : Acts L t a sh sh') : may1 g a := by
  cases h <;> trivial

theorem may1_recv {g : Tid → G1} {sh : Shared σ} {i : Nat} {b : Bool} (h : Glob1 g sh)
    (hm : must1 (g .worker) (.sendFlushed b)) : may1 (g (.client i)) (.recvFlushed b) := by
  intro t ht
  obtain ⟨_, _, u, hu, hb⟩ := hm
  rw [h.await_owes i t ht] at hu
  cases hu
  exact hb

/-- The rules and the invariant. -/
def scheme1 (S : Setup σ) : Scheme S G1 where
  R := R1
  Q := Returns
  unborn := {}
  born := born1
  idle := idle1
  flushing := flushing1
  K := K1
  k_born c := ⟨rfl, rfl, rfl⟩
  k_post := k1_post
  G := Glob1
  ok_call c _ := ok_call1 S.cv c
  ok_tick k := ok_onTick ⟨rfl, rfl, rfl, rfl, rfl⟩ rfl rfl
  ok_flush t := ok_flushCaches ⟨rfl, rfl, rfl, rfl, rfl⟩ rfl rfl rfl
  may_act _ ha := may1_act ha
  g_act := glob1_act
  g_env h _ := glob_congr h (fun _ => sameCore_refl _) rfl rfl
  g_born h _ hi := glob1_born h hi
  may_send _ _ := trivial
  g_send := glob1_send
  may_answer _ := trivial
  may_recv h hm _ := may1_recv h hm
  g_recv := glob1_recv

end Comfo
