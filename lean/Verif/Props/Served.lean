import Verif.Lemmas.Served
import Verif.Lemmas.Bytes
import Verif.Props.Sync
/-!
# What the Get RPCs serve, in every interleaving: C37, C57, C58

`C37_served_from_unit` (`Verif/Props/Cache.lean`) is about histories in which one thing happens after
the other. Here any number of requests and the worker run interleaved.
-/
namespace Comfo.Props
open Spec

/-! ## C37 -/

/-- What a Get request does. -/
theorem get_path {id : CacheId} {acts : List Act} {r : Resp} {cv : FloatConv}
    (h : Path ((getCall id).prog cv) acts (.ret r)) :
    ∃ c, acts = [.lock (.cache id), .load id c, .unlock (.cache id)] ∧ r = getAnswer id c.val := by
  have key : ∀ {β : Type} (conv : CVal id → β) (mk : Rpc β → Resp),
      (∀ v, mk (.ok (conv v)) = getAnswer id v) →
      Path ((protobuf id conv).map mk) acts (.ret r) →
      ∃ c, acts = [.lock (.cache id), .load id c, .unlock (.cache id)] ∧ r = getAnswer id c.val := by
    intro β conv mk hmk h
    rcases path_uncons h with ⟨rfl, h0⟩ | ⟨a1, p1, acts1, rfl, h1, h⟩
    · cases h0
    change Prog.Next (.lock _ _) _ _ at h1
    cases h1 with | lock =>
    rcases path_uncons h with ⟨rfl, h0⟩ | ⟨a2, p2, acts2, rfl, h2, h⟩
    · cases h0
    change Prog.Next (.load id _) _ _ at h2
    cases h2 with | load c =>
    rcases path_uncons h with ⟨rfl, h0⟩ | ⟨a3, p3, acts3, rfl, h3, h⟩
    · cases h0
    change Prog.Next (.unlock _ _) _ _ at h3
    cases h3 with | unlock =>
    rcases path_uncons h with ⟨rfl, h0⟩ | ⟨a4, p4, acts4, rfl, h4, h⟩
    · change Prog.ret (mk (.ok (conv c.val))) = _ at h0
      exact ⟨c, rfl, by rw [← hmk]; exact (Prog.ret.inj h0).symm⟩
    · cases h4
  cases id with
  | boot => exact key _ _ (fun _ => rfl) h
  | bypass => exact key _ _ (fun _ => rfl) h
  | temps => exact key _ _ (fun _ => rfl) h
  | fans => exact key _ _ (fun _ => rfl) h
  | profiles => exact key _ _ (fun _ => rfl) h
  | errors => exact key _ _ (fun _ => rfl) h

/-- Only the goroutine's own actions decide what it holds. -/
theorem inside_own {t : Tid} {l : Lock} {tr : List (Tid × Act)} (h : actsOf t tr = [.lock l]) :
    inside t l tr = true := by
  have key : ∀ (tr : List (Tid × Act)) (b : Bool), actsOf t tr = [] →
      tr.foldl (holdStep t l) b = b := by
    intro tr
    induction tr with
    | nil => intro b _; rfl
    | cons x tr ih =>
      obtain ⟨u, a⟩ := x
      intro b hx
      by_cases hu : u = t
      · simp [actsOf, hu] at hx
      · rw [List.foldl_cons, show holdStep t l b (u, a) = b from if_neg hu]
        exact ih b (by simpa [actsOf, hu] using hx)
  unfold inside
  generalize false = b
  induction tr generalizing b with
  | nil => cases h
  | cons x tr ih =>
    obtain ⟨u, a⟩ := x
    rw [List.foldl_cons]
    by_cases hu : u = t
    · simp [actsOf, hu] at h
      obtain ⟨rfl, h⟩ := h
      rw [show holdStep t l b (u, .lock l) = true by simp [holdStep, hu]]
      exact key _ _ (by simpa [actsOf] using h)
    · rw [show holdStep t l b (u, a) = b from if_neg hu]
      exact ih (by simpa [actsOf, hu] using h) b

/-- Splitting the trace where a goroutine acts. -/
theorem actsOf_split {t : Tid} {a : Act} {as bs : List Act} {tr : List (Tid × Act)}
    (h : actsOf t tr = as ++ a :: bs) :
    ∃ pre post, tr = pre ++ (t, a) :: post ∧ actsOf t pre = as ∧ actsOf t post = bs := by
  induction tr generalizing as with
  | nil => simp [actsOf] at h
  | cons x tr ih =>
    obtain ⟨u, b⟩ := x
    by_cases hu : u = t
    · subst hu
      have h : b :: actsOf u tr = as ++ a :: bs := by simpa [actsOf] using h
      cases as with
      | nil =>
        simp only [List.nil_append, List.cons.injEq] at h
        exact ⟨[], tr, by rw [h.1]; rfl, rfl, h.2⟩
      | cons y as =>
        simp only [List.cons_append, List.cons.injEq] at h
        obtain ⟨pre, post, h1, h2, h3⟩ := ih h.2
        exact ⟨(u, b) :: pre, post, by rw [h1]; rfl, by simp [actsOf, ← h.1] at h2 ⊢; exact h2, h3⟩
    · have h : actsOf t tr = as ++ a :: bs := by simpa [actsOf, hu] using h
      obtain ⟨pre, post, h1, h2, h3⟩ := ih h
      exact ⟨(u, b) :: pre, post, by rw [h1]; rfl, by simpa [actsOf, hu] using h2, h3⟩

/-- **C37**, all interleavings. A Get request that has returned answered with the value that was
current at one moment of its run: what the last refresh that had succeeded by then — whoever made
it — read from the unit, or what the cache held at the start. It is never a value that is being
replaced or only partly there. -/
theorem C37_served_concurrently {S : Setup σ} {w : World σ} {s : Sys σ}
    (h : Reachable S (Sys.initial w) s) {i : Nat} {id : CacheId} {r : Resp}
    (ha : Answered s i (getCall id) r) :
    ∃ pre c post, s.sh.trace = pre ++ (.client i, .load id c) :: post ∧
      c = current id (w.get id) pre ∧ r = getAnswer id c.val := by
  obtain ⟨g, hi⟩ := inv3 h
  have hG : Glob3 (fun id => w.get id) g s.sh := hi.glob
  have hpath := (hi.hist.path i _ ha).1
  obtain ⟨c, h1, h2⟩ := get_path hpath
  obtain ⟨pre, post, h3, h4, h5⟩ := actsOf_split (as := [.lock (.cache id)]) (a := .load id c)
    (bs := [.unlock (.cache id)]) h1
  exact ⟨pre, c, post, h3, hG.loads _ _ _ _ _ h3 (inside_own h4), h2⟩

/-- The hypotheses are met: while one `GetTemps` waits for the refresh of a flush, another has been
answered with the zero value; then the first is answered with the new one. -/
example : (Sys.execs demo ([.arrive .getTemps, .arrive (.flush 2), .arrive .getTemps] ++
      steps 3 (.client 2) ++ steps 2 (.client 1) ++ steps 10 .worker ++ steps 3 (.client 0))
      (Sys.initial demoStart)).any (fun (s : Sys UInt8) =>
    match s.clients.map Client.prog with
    | [.ret (.temps (.ok a)), _, .ret (.temps (.ok b))] =>
      a.comfort == 21 && b.comfort == 0
    | _ => false) = true := by decide

/-! ## C57 -/

theorem scanAll_from {id : CacheId} (post : List (Tid × Act)) :
    ∀ (pre : List (Tid × Act)) (s : Option (CVal id × Int) × (Tid → Cur)),
    (∀ v, s.1 = some v → ∃ t q, (t, Act.got true (q, none)) ∈ pre ∧
      q.command = requestCode id + 1 ∧ decode id q.data = some v.1) →
    (∀ u pl t, s.2 u = .replied pl t → ∃ q, (u, Act.got true (q, none)) ∈ pre ∧
      q.command = requestCode id + 1 ∧ q.data = pl) →
    ∀ v, (post.foldl (scanAct id) s).1 = some v → ∃ t q, (t, Act.got true (q, none)) ∈ pre ++ post ∧
      q.command = requestCode id + 1 ∧ decode id q.data = some v.1 := by
  induction post with
  | nil => intro pre s h1 _ v hv; simpa using h1 v hv
  | cons x post ih =>
    intro pre s h1 h2 v hv
    obtain ⟨u, a⟩ := x
    have weaken1 : ∀ v, s.1 = some v → ∃ t q, (t, Act.got true (q, none)) ∈ pre ++ [(u, a)] ∧
        q.command = requestCode id + 1 ∧ decode id q.data = some v.1 := by
      intro v hv
      obtain ⟨t, q, h, h'⟩ := h1 v hv
      exact ⟨t, q, List.mem_append_left _ h, h'⟩
    have weaken2 : ∀ u' pl t, s.2 u' = .replied pl t →
        ∃ q, (u', Act.got true (q, none)) ∈ pre ++ [(u, a)] ∧
        q.command = requestCode id + 1 ∧ q.data = pl := by
      intro u' pl t h
      obtain ⟨q, h, h'⟩ := h2 u' pl t h
      exact ⟨q, List.mem_append_left _ h, h'⟩
    have e : pre ++ (u, a) :: post = (pre ++ [(u, a)]) ++ post := by simp
    rw [e]
    refine ih (pre ++ [(u, a)]) (scanAct id s (u, a)) ?_ ?_ v hv
    · -- a result
      intro v hv
      unfold scanAct at hv
      split at hv
      · exact weaken1 v hv
      · rename_i ev hev
        simp only at hv
        rcases hcur : s.2 u with _ | t | t | ⟨pl, t⟩
        all_goals rw [hcur] at hv
        · rcases ev with ⟨bs, n, _ | e⟩ | ⟨_ | _, q, _ | e⟩ | ⟨i, t⟩ | b <;> exact weaken1 v hv
        · rcases ev with ⟨bs, n, _ | e⟩ | ⟨_ | _, q, _ | e⟩ | ⟨i, t⟩ | b <;> exact weaken1 v hv
        · rcases ev with ⟨bs, n, _ | e⟩ | ⟨_ | _, q, _ | e⟩ | ⟨i, t⟩ | b <;> exact weaken1 v hv
        · rcases ev with ⟨bs, n, _ | e⟩ | ⟨_ | _, q, _ | e⟩ | ⟨i, t⟩ | b <;>
            try exact weaken1 v hv
          simp only [scanEv] at hv
          match hd : decode id pl with
          | none => rw [hd] at hv; exact weaken1 v hv
          | some x =>
            rw [hd] at hv
            simp only at hv
            split at hv
            · cases hv
              obtain ⟨q, h, h', h''⟩ := weaken2 u pl t hcur
              exact ⟨u, q, h, h', by rw [h'', hd]⟩
            · exact weaken1 v hv
    · -- a reply
      intro u' pl t h
      unfold scanAct at h
      split at h
      · exact weaken2 u' pl t h
      · rename_i ev hev
        simp only at h
        split at h
        · rename_i hu
          have hu : u' = u := hu
          subst hu
          rcases hcur : s.2 u' with _ | t | t | ⟨pl, t⟩
          all_goals rw [hcur] at h
          · rcases ev with ⟨bs, n, _ | e⟩ | ⟨_ | _, q, _ | e⟩ | ⟨i, t⟩ | b <;>
              simp only [scanEv] at h <;> (try cases h)
            split at h <;> cases h
          · rcases ev with ⟨bs, n, _ | e⟩ | ⟨_ | _, q, _ | e⟩ | ⟨i, t⟩ | b <;>
              simp only [scanEv] at h <;> (try cases h) <;> split at h <;> cases h
          · rcases ev with ⟨bs, n, _ | e⟩ | ⟨_ | _, q, _ | e⟩ | ⟨i, t⟩ | b <;>
              simp only [scanEv] at h <;> (try cases h) <;> split at h <;> cases h
            rename_i hq
            cases a <;> simp [evOf] at hev
            obtain ⟨rfl, rfl⟩ := hev
            exact ⟨q, by simp, hq, rfl⟩
          · rcases ev with ⟨bs, n, _ | e⟩ | ⟨_ | _, q, _ | e⟩ | ⟨i, t⟩ | b <;>
              simp only [scanEv] at h <;> (try cases h) <;> split at h <;> cases h
        · exact weaken2 u' pl t h

/-- **C57** From the bytes on the wire to the answer of an RPC, in every interleaving: whatever a
Get request answers, other than what the cache held at the start, was decoded from the payload of a
reply that is there, whole, with the right command, length and checksum, in the bytes the unit sent;
`part` is what was still unread then. The connection may stall, fail, deliver the bytes in any
pieces and accept or refuse any write. -/
theorem C57_from_the_wire {S : Setup Conn} (hS : S.line = scriptLine)
    (hE : ∀ a b, S.env a b → b.rd = a.rd) {w : World Conn} {s : Sys Conn}
    (h : Reachable S (Sys.initial w) s) {i : Nat} {id : CacheId} {r : Resp}
    (ha : Answered s i (getCall id) r) :
    r = getAnswer id (w.get id).val ∨
    ∃ part payload v, part <:+ bytesOf w.line.rd ∧ ReplyIn part (requestCode id + 1) payload ∧
      decode id payload = some v ∧ r = getAnswer id v := by
  obtain ⟨pre, c, post, h1, h2, h3⟩ := C37_served_concurrently h ha
  unfold current at h2
  match hs : (scanAll id pre).1 with
  | none => left; rw [hs] at h2; rw [h3, h2]
  | some (v, t) =>
    right
    rw [hs] at h2
    obtain ⟨u, q, h4, h5, h6⟩ := scanAll_from pre [] (none, fun _ => .idle) (by simp) (by simp) _ hs
    have hmem : (u, Act.got true (q, none)) ∈ s.sh.trace := by
      rw [h1]; exact List.mem_append_left _ (by simpa using h4)
    rcases (fromScript_reach hS hE h).got u q hmem with hq | ⟨part, h7, h8⟩
    · exfalso
      rw [hq] at h5
      cases id <;> exact absurd h5 (by decide)
    · rw [h5] at h8
      exact ⟨part, q.data, v, h7, h8, h6, by rw [h3, h2]⟩

/-- A connection on which the unit acknowledges and answers the request for the temperatures, in
pieces, after some noise was skipped by an earlier query that failed. -/
def servedConn : Conn where
  rd := [.data [1, 2, 7], .data [0xF0], .data [7, 0xF3, 7],
    .data ((frame 0xD2 [82, 50, 80, 82, 52, 0, 0, 0, 0]).tail)]

/-- The server on a script; nothing but the script decides what the line does. -/
def scripted : Setup Conn where
  cv := amd64
  line := scriptLine
  env := fun a b => b = a

/-- The hypotheses are met, with the second disjunct: the first refresh fails on the noise, the
second succeeds, then `GetTemps` answers 21 °C. -/
example : (∀ a b, scripted.env a b → b.rd = a.rd) ∧
    (Sys.execs scripted ([.arrive (.flush 2), .arrive (.flush 2)] ++
      steps 2 (.client 0) ++ steps 8 .worker ++ steps 2 (.client 0) ++
      steps 2 (.client 1) ++ steps 10 .worker ++ steps 2 (.client 1) ++ [.arrive .getTemps] ++
      steps 3 (.client 2)) (Sys.initial { line := servedConn })).any (fun (s : Sys Conn) =>
    match s.clients.map Client.prog with
    | [_, _, .ret (.temps (.ok a))] => a.comfort == 21
    | _ => false) = true := by
  refine ⟨fun a b h => by rw [show b = a from h], ?_⟩
  set_option maxRecDepth 8000 in decide

/-! ## C58 -/

theorem reach_trans {S : Setup σ} {s₀ s₁ s₂ : Sys σ} (h : Reachable S s₀ s₁)
    (h' : Reachable S s₁ s₂) : Reachable S s₀ s₂ := by
  induction h' with
  | start => exact h
  | step _ hs ih => exact .step ih hs

theorem trace_grows {S : Setup σ} {s₁ s₂ : Sys σ} (h : Reachable S s₁ s₂) :
    ∃ ext, s₂.sh.trace = s₁.sh.trace ++ ext := by
  induction h with
  | start => exact ⟨[], by simp⟩
  | step _ hs ih =>
    obtain ⟨ext, ih⟩ := ih
    cases hs with
    | work hw =>
      cases hw with
      | client i c a p sh _ _ ha => exact ⟨ext ++ [_], by rw [acts_trace ha, ih, List.append_assoc]⟩
      | worker a p sh _ ha => exact ⟨ext ++ [_], by rw [acts_trace ha, ih, List.append_assoc]⟩
      | flush i c t p _ _ _ => exact ⟨ext ++ [_], by rw [← List.append_assoc, ← ih]⟩
      | flushed i c b p q _ _ _ => exact ⟨ext ++ [_, _], by rw [← List.append_assoc, ← ih]⟩
    | tick k hw => exact ⟨ext, ih⟩
    | arrive c hc => exact ⟨ext, ih⟩
    | environment line ns he => exact ⟨ext, ih⟩

/-- **C58** Answers do not go back in time: a Get request that arrives after `s₁` answers with the
value that is current at some moment after `s₁`, so it takes into account every refresh that had
succeeded by then. In particular it can not answer with anything older than a Get request that had
been answered in `s₁`, or than a refresh done by a flush that had been answered in `s₁`. -/
theorem C58_no_going_back {S : Setup σ} {w : World σ} {s₁ s₂ : Sys σ}
    (h₁ : Reachable S (Sys.initial w) s₁) (h₂ : Reachable S s₁ s₂) {j : Nat} {id : CacheId}
    {r : Resp} (hj : s₁.clients.length ≤ j) (ha : Answered s₂ j (getCall id) r) :
    ∃ mid c post, s₂.sh.trace = s₁.sh.trace ++ mid ++ (.client j, .load id c) :: post ∧
      c = current id (w.get id) (s₁.sh.trace ++ mid) ∧ r = getAnswer id c.val := by
  obtain ⟨g, hi⟩ := inv3 (reach_trans h₁ h₂)
  obtain ⟨g₁, hi₁⟩ := inv3 h₁
  have hG : Glob3 (fun id => w.get id) g s₂.sh := hi.glob
  have hpath := (hi.hist.path j _ ha).1
  obtain ⟨c, h1, h2⟩ := get_path hpath
  obtain ⟨ext, hext⟩ := trace_grows h₂
  have hfresh := hi₁.hist.fresh j hj
  rw [hext, actsOf_append, hfresh, List.nil_append] at h1
  obtain ⟨pre, post, h3, h4, h5⟩ := actsOf_split (as := [.lock (.cache id)]) (a := .load id c)
    (bs := [.unlock (.cache id)]) h1
  have h6 : s₂.sh.trace = (s₁.sh.trace ++ pre) ++ (.client j, .load id c) :: post := by
    rw [hext, h3]; simp
  refine ⟨pre, c, post, by rw [h6], hG.loads _ _ _ _ _ h6 (inside_own ?_), h2⟩
  rw [actsOf_append, hfresh, h4]; rfl

/-- Nobody wrote to the line in `mid`. -/
def NoWrites (mid : List (Tid × Act)) : Prop := ∀ x ∈ mid, ∀ bs r, x.2 ≠ .wrote bs r

theorem scan_noWrites {id : CacheId} {mid : List (Tid × Act)} (h : NoWrites mid)
    (s : Option (CVal id × Int) × (Tid → Cur)) : (mid.foldl (scanAct id) s).1 = s.1 := by
  induction mid generalizing s with
  | nil => rfl
  | cons x mid ih =>
    rw [List.foldl_cons, ih fun y hy => h y (List.mem_cons_of_mem _ hy)]
    unfold scanAct
    match he : evOf x.2 with
    | none => rfl
    | some ev =>
      have hx := h x (List.mem_cons_self ..)
      simp only
      rcases ev with ⟨bs, n, _ | e⟩ | ⟨_ | _, q, _ | e⟩ | ⟨i, t⟩ | b <;>
        cases s.2 x.1 <;> try rfl
      cases hxa : x.2 <;> rw [hxa] at he <;> simp [evOf] at he
      exact absurd hxa (hx _ _)

/-- **C58** (2) As long as nobody writes to the line, all Get requests of a cache that arrive get the
same answer: that of the last good refresh. -/
theorem C58_stable {S : Setup σ} {w : World σ} {s₁ s₂ : Sys σ}
    (h₁ : Reachable S (Sys.initial w) s₁) (h₂ : Reachable S s₁ s₂) {j : Nat} {id : CacheId}
    {r : Resp} (hj : s₁.clients.length ≤ j) (ha : Answered s₂ j (getCall id) r)
    {ext : List (Tid × Act)} (he : s₂.sh.trace = s₁.sh.trace ++ ext) (hn : NoWrites ext) :
    r = getAnswer id (current id (w.get id) s₁.sh.trace).val := by
  obtain ⟨mid, c, post, h1, h2, h3⟩ := C58_no_going_back h₁ h₂ hj ha
  rw [he, List.append_assoc] at h1
  have h1 := List.append_cancel_left h1
  have : NoWrites mid := fun x hx => hn x (by rw [h1]; exact List.mem_append_left _ hx)
  rw [h3, h2]
  unfold current scanAll
  rw [List.foldl_append, scan_noWrites this]

/-- The hypotheses are met: a flush, then in turn two `GetTemps`. -/
example : (Sys.execs demo ([.arrive (.flush 2)] ++ steps 2 (.client 0) ++ steps 10 .worker ++
      steps 2 (.client 0) ++ [.arrive .getTemps, .arrive .getTemps] ++ steps 3 (.client 1) ++
      steps 3 (.client 2)) (Sys.initial demoStart)).any (fun (s : Sys UInt8) =>
    match s.clients.map Client.prog with
    | [_, .ret (.temps (.ok a)), .ret (.temps (.ok b))] => a == b && a.comfort == 21
    | _ => false) = true := by decide

end Comfo.Props
