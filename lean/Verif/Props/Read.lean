import Verif.Spec.Read
import Verif.Props.Main
import Verif.Props.EndToEnd
/-!
# C96: what a getter of the Python client returns is in the bytes the unit sent

From the bytes on the wire, through decoding, the cache, the request handler and the message, to the
object in Python; while the server starts and later, in every interleaving.
-/
namespace Comfo.Props
open Spec Log

/-- Whatever a program that runs alone has read was in the script. -/
theorem fromScript_run (p : Prog α) (w : World Conn) {x : Option α} {w' : World Conn}
    (h : p.run scriptLine w = (x, w')) :
    bytesOf w'.line.rd <:+ bytesOf w.line.rd ∧
    ∀ q, IoEv.got true (q, none) ∈ w'.io → IoEv.got true (q, none) ∈ w.io ∨ q = {} ∨
      ∃ part, part <:+ bytesOf w.line.rd ∧ ReplyIn part q.command q.data := by
  induction p generalizing w with
  | ret a => cases h; exact ⟨List.suffix_refl _, fun q hq => .inl hq⟩
  | panic => cases h; exact ⟨List.suffix_refl _, fun q hq => .inl hq⟩
  | lock l k ih => exact ih w h
  | unlock l k ih => exact ih w h
  | rlock l k ih => exact ih w h
  | runlock l k ih => exact ih w h
  | now k ih =>
    obtain ⟨h1, h2⟩ := ih _ w.tick h
    have e1 : w.tick.line = w.line := rfl
    have e2 : w.tick.io = w.io := rfl
    rw [e1] at h1 h2; rw [e2] at h2
    exact ⟨h1, h2⟩
  | sleep ns k ih => exact ih { w with clock := w.clock + (ns : Int) } h
  | write bs k ih =>
    obtain ⟨h1, h2⟩ := ih _ _ h
    have e : ((scriptLine.write bs w.line).2).rd = w.line.rd := write_rd _ _
    change bytesOf w'.line.rd <:+ bytesOf ((scriptLine.write bs w.line).2).rd at h1
    rw [e] at h1
    refine ⟨h1, fun q hq => ?_⟩
    rcases h2 q hq with h3 | h3 | ⟨part, h3, h4⟩
    · simp [World.log] at h3; exact .inl h3
    · exact .inr (.inl h3)
    · change part <:+ bytesOf ((scriptLine.write bs w.line).2).rd at h3
      rw [e] at h3
      exact .inr (.inr ⟨part, h3, h4⟩)
  | read e k ih =>
    rw [Prog.run] at h
    split at h
    · rename_i line hr
      cases h
      refine ⟨?_, fun q hq => .inl hq⟩
      have := readPacket_suffix w.line e
      rw [show readPacket w.line e = _ from hr] at this
      exact this
    · rename_i q err line hr
      have hrd : readPacket w.line e = (.ret q err, line) := hr
      obtain ⟨h1, h2⟩ := ih _ _ h
      simp only [World.log] at h1 h2
      have hs : bytesOf line.rd <:+ bytesOf w.line.rd := by
        have := readPacket_suffix w.line e
        rw [hrd] at this; exact this
      refine ⟨h1.trans hs, fun q' hq => ?_⟩
      rcases h2 q' hq with h3 | h3 | ⟨part, h3, h4⟩
      · simp at h3
        rcases h3 with h3 | ⟨rfl, rfl, rfl⟩
        · exact .inl h3
        · rcases readPacket_reply hrd with h4 | h4
          · exact .inr (.inl h4)
          · exact .inr (.inr ⟨_, List.suffix_refl _, h4⟩)
      · exact .inr (.inl h3)
      · exact .inr (.inr ⟨part, h3.trans hs, h4⟩)
  | load id k ih => exact ih _ _ h
  | store id e k ih =>
    obtain ⟨h1, h2⟩ := ih _ h
    have e1 : (w.set id e).line = w.line := by cases id <;> rfl
    have e2 : (w.set id e).io = w.io := by cases id <;> rfl
    rw [e1] at h1 h2; rw [e2] at h2
    exact ⟨h1, h2⟩
  | note id t k ih =>
    obtain ⟨h1, h2⟩ := ih _ h
    refine ⟨h1, fun q hq => ?_⟩
    rcases h2 q hq with h3 | h3
    · simp [World.log] at h3; exact .inl h3
    · exact .inr h3
  | sendFlush t k ih => cases h; exact ⟨List.suffix_refl _, fun q hq => .inl hq⟩
  | recvFlushed k ih => cases h; exact ⟨List.suffix_refl _, fun q hq => .inl hq⟩
  | sendFlushed b k ih =>
    obtain ⟨h1, h2⟩ := ih _ h
    refine ⟨h1, fun q hq => ?_⟩
    rcases h2 q hq with h3 | h3
    · simp [World.log] at h3; exact .inl h3
    · exact .inr h3

/-- Whatever the unit has told, it has told in the script. -/
theorem told_bytes {S : Setup Conn} (hS : S.line = scriptLine) (hE : ∀ a b, S.env a b → b.rd = a.rd)
    {line : Conn} {clock : Int} {adv : List Nat} {s : Sys Conn}
    (h : Reachable S (Sys.initial (started S.line line clock adv)) s) {id : CacheId} {v : CVal id}
    (ht : Told id v (started S.line line clock adv).io s.sh.trace) :
    ∃ part payload, part <:+ bytesOf line.rd ∧ ReplyIn part (requestCode id + 1) payload ∧
      decode id payload = some v := by
  obtain ⟨q, hq, hd, ht⟩ := ht
  obtain ⟨h1, h2⟩ := fromScript_run startCaches (World.initial line clock adv)
    (x := _) (w' := started scriptLine line clock adv) rfl
  have hne : q ≠ {} := by
    intro e
    rw [e] at hq
    cases id <;> exact absurd hq (by decide)
  rw [← hS] at h1 h2
  rcases ht with ht | ⟨t, ht⟩
  · rcases h2 q ht with h3 | h3 | ⟨part, h3, h4⟩
    · simp [World.initial] at h3
    · exact absurd h3 hne
    · exact ⟨part, q.data, h3, by rw [← hq]; exact h4, hd⟩
  · rcases (fromScript_reach hS hE h).got t q ht with h3 | ⟨part, h3, h4⟩
    · exact absurd h3 hne
    · exact ⟨part, q.data, h3.trans h1, by rw [← hq]; exact h4, hd⟩

theorem okVal_some {g : Go β} {v : β} (h : okVal g = some v) : g = .ret v none := by
  unfold okVal at h
  split at h
  · cases h; rfl
  · cases h

theorem stands_boot {pl : List UInt8} {v : BootInfo} (hu : BootInfo.unmarshalBinary pl = .ret v none) :
    pl.length = 13 ∧ PyOp.getBootinfo.Stands pl (.boot (PyBootInfo.init (BootInfo.protobuf v))) := by
  by_cases hl : pl.length = 13
  · refine ⟨hl, ?_⟩
    obtain ⟨a, b, c, name, rfl, hn⟩ := list13 hl
    rw [bootInfo_list a b c name hn] at hu
    simp at hu; subst hu
    obtain ⟨pre, post, h1, h2, h3, h4⟩ := trimSpace_spec name
    refine ⟨?_, ?_, ?_, hn, h4, pre, post, h1, h2, h3⟩ <;> simp [BootInfo.protobuf, PyBootInfo.init]
  · rw [bootInfo_bad hl] at hu; simp at hu

theorem stands_bypass {pl : List UInt8} {v : Bypass} (hu : Bypass.unmarshalBinary pl = .ret v none) :
    PyOp.getBypass.Stands pl (.bypass (PyBypass.init (Bypass.protobuf v))) := by
  by_cases hl : pl.length = 7
  · obtain ⟨b0, b1, b2, b3, b4, b5, b6, rfl⟩ := list7 hl
    simp [Bypass.unmarshalBinary, Go.ofOption] at hu
    subst hu
    simp [PyOp.Stands, Bypass.protobuf, PyBypass.init]
  · rw [bypass_bad hl] at hu; simp at hu

theorem stands_temps {pl : List UInt8} {v : Temps} (hu : Temps.unmarshalBinary pl = .ret v none) :
    PyOp.getTemps.Stands pl (.temps (PyTemps.init (Temps.protobuf v))) := by
  by_cases hl : pl.length = 9
  · obtain ⟨b0, b1, b2, b3, b4, b5, b6, b7, b8, rfl⟩ := list9 hl
    simp [Temps.unmarshalBinary, Go.ofOption] at hu
    subst hu
    simp [PyOp.Stands, Temps.protobuf, PyTemps.init, temperature_degrees]
  · rw [temps_bad hl] at hu; simp at hu

theorem stands_fans {pl : List UInt8} {v : Fans} (hu : Fans.unmarshalBinary pl = .ret v none) :
    PyOp.getFans.Stands pl (.fans (PyFans.init (Fans.protobuf v))) := by
  by_cases hl : pl.length = 6
  · obtain ⟨a, b, p0, p1, q0, q1, rfl⟩ := list6 hl
    have be : ∀ a b : UInt8, bigEndian [a, b] = a.toNat * 256 + b.toNat := by
      intro a b; simp [bigEndian]
    by_cases hz : p0.toNat * 256 + p1.toNat = 0 ∨ q0.toNat * 256 + q1.toNat = 0
    · rw [(fans_list a b p0 p1 q0 q1).1 hz] at hu; simp at hu
    · have z1 := fun h => hz (.inl h)
      have z2 := fun h => hz (.inr h)
      obtain ⟨v', hv, e1, e2, e3, e4⟩ := (fans_list a b p0 p1 q0 q1).2 z1 z2
      rw [hv] at hu
      simp at hu; subst hu
      refine ⟨?_, ?_, by rw [be]; exact z1, ?_, by rw [be]; exact z2, ?_⟩
      · simp [Fans.protobuf, PyFans.init, e1]
      · simp [Fans.protobuf, PyFans.init, e2]
      · rw [be, ← e3]; simp [Fans.protobuf, PyFans.init]
      · rw [be, ← e4]; simp [Fans.protobuf, PyFans.init]
  · rw [fans_bad hl] at hu; simp at hu

theorem stands_profiles {pl : List UInt8} {v : FanProfiles}
    (hu : FanProfiles.unmarshalBinary pl = .ret v none) :
    PyOp.getFanProfiles.Stands pl (.profiles (PyFanProfiles.init (FanProfiles.protobuf v))) := by
  by_cases hl : pl.length = 14
  · obtain ⟨a, b, c1, d, e, f, g, i, j, k, m, n, o, p, rfl⟩ := list14 hl
    rw [profiles_list] at hu
    simp at hu; subst hu
    simp [PyOp.Stands, FanProfiles.protobuf, PyFanProfiles.init]
  · rw [profiles_bad hl] at hu; simp at hu

theorem stands_errors {pl : List UInt8} {v : Errors} (hu : Errors.unmarshalBinary pl = .ret v none) :
    PyOp.getErrors.Stands pl (.errors (PyErrors.init (Errors.protobuf v))) := by
  by_cases hl : pl.length = 17
  · rw [errors_list hl] at hu
    simp at hu; subst hu
    exact ⟨hl, by simp [Errors.protobuf, PyErrors.init]⟩
  · rw [errors_bad hl] at hu; simp at hu

/-- What a getter makes of the answer for a value that was decoded stands for the payload. -/
theorem stands {op : PyOp} {id : CacheId} (ho : op.cache = some id) {pl : List UInt8} {v : CVal id}
    (hd : decode id pl = some v) {x : PyVal} (hx : op.returns (some (getAnswer id v)) = .ok x) :
    op.Stands pl x := by
  cases op <;> cases ho <;> cases hx
  · exact ⟨rfl, (stands_boot (okVal_some hd)).1⟩
  · exact (stands_boot (okVal_some hd)).2
  · exact stands_bypass (okVal_some hd)
  · exact stands_temps (okVal_some hd)
  · exact stands_fans (okVal_some hd)
  · exact stands_profiles (okVal_some hd)
  · exact stands_errors (okVal_some hd)

/-- What an answer says that is about a cache the unit has told: it was in the script. -/
theorem answer_read_told {S : Setup Conn} (hS : S.line = scriptLine)
    (hE : ∀ a b, S.env a b → b.rd = a.rd) {W : Twirp.Wording} {line : Conn} {clock : Int} {adv : List Nat}
    {id : CacheId} {recs : List Record}
    (hl : ((startCachesLogged W).run S.line (World.initial line clock adv)).1 = some recs)
    (hno : ∀ r ∈ recs, r.level = .error → ¬ Names id r) {s : Sys Conn}
    (h : Reachable S (Sys.initial (started S.line line clock adv)) s) {i : Nat} {r : Resp}
    (ha : Answered s i (getCall id) r) :
    ∃ part payload val, part <:+ bytesOf line.rd ∧ ReplyIn part (requestCode id + 1) payload ∧
      decode id payload = some val ∧ r = getAnswer id val := by
  obtain ⟨recs', h1, -, h2⟩ := C95_told (S := S) (by rw [hS]; exact scriptLine_noPanic) W line clock adv id
  rw [h1] at hl
  obtain rfl := Option.some.inj hl
  obtain ⟨val, ht, rfl⟩ := h2 hno h ha
  obtain ⟨part, payload, h3, h4, h5⟩ := told_bytes hS hE h ht
  exact ⟨part, payload, val, h3, h4, h5, rfl⟩

/-- Without the log: it was in the script, or the answer is the zero value. -/
theorem answer_read_or_zero {S : Setup Conn} (hS : S.line = scriptLine)
    (hE : ∀ a b, S.env a b → b.rd = a.rd) {line : Conn} {clock : Int} {adv : List Nat}
    {id : CacheId} {s : Sys Conn}
    (h : Reachable S (Sys.initial (started S.line line clock adv)) s) {i : Nat} {r : Resp}
    (ha : Answered s i (getCall id) r) :
    (∃ part payload val, part <:+ bytesOf line.rd ∧ ReplyIn part (requestCode id + 1) payload ∧
      decode id payload = some val ∧ r = getAnswer id val) ∨ r = getAnswer id (zeroEntry id).val := by
  have hL : S.line.NoPanic := by rw [hS]; exact scriptLine_noPanic
  have wire : ∀ val, Told id val (started S.line line clock adv).io s.sh.trace → r = getAnswer id val →
      ∃ part payload val, part <:+ bytesOf line.rd ∧ ReplyIn part (requestCode id + 1) payload ∧
        decode id payload = some val ∧ r = getAnswer id val := by
    intro val ht e
    obtain ⟨part, payload, h3, h4, h5⟩ := told_bytes hS hE h ht
    exact ⟨part, payload, val, h3, h4, h5, e⟩
  cases hg : lastGood id (started S.line line clock adv).io with
  | some x =>
    obtain ⟨val, ht, e⟩ := C73_told_partial hL h ha (by rw [hg]; simp)
    exact .inl (wire val ht e)
  | none =>
    obtain ⟨pre, c, post, h1, h2, h3⟩ := C37_served_concurrently h ha
    unfold current at h2
    match hc : (scanAll id pre).1 with
    | some (val, t) =>
      rw [hc] at h2
      obtain ⟨u, q, h4, h5, h6⟩ := scanAll_from pre [] (none, fun _ => .idle) (by simp) (by simp) _ hc
      refine .inl (wire val ⟨q, h5, h6, .inr ⟨u, ?_⟩⟩ (by rw [h3, h2]))
      rw [h1]; exact List.mem_append_left _ (by simpa using h4)
    | none =>
      rw [hc] at h2
      obtain ⟨a, w', h4, h5⟩ := good_updateCaches hL true (World.initial line clock adv)
      have hA : Agrees (started S.line line clock adv) := by
        have : startCaches.run S.line (World.initial line clock adv) = (some a, w') := h4
        rw [started, this]
        exact agrees_evolves (agrees_initial _ _ _) h5
      have := (hA id).1
      rw [servedFrom, hg] at this
      have e : r = getAnswer id (zeroEntry id).val := by
        rw [h3, h2]
        show getAnswer id ((started S.line line clock adv).get id).val = _
        rw [this]
      exact .inr e

/-- **C96** Whatever a getter of the Python client returns (a method or its asynchronous variant), if
the log of the start of the server names no failure for the cache it reads: there is, whole and with
the right command, length and checksum, a reply in the bytes the unit sent, and every field of the
result is what the byte at its place says, in the unit of the field. For any connection, which may
stall, fail and deliver the bytes in any pieces, any other requests, and every interleaving. -/
theorem C96_read {ω : Type} {S : Setup Conn} (hS : S.line = scriptLine)
    (hE : ∀ a b, S.env a b → b.rd = a.rd) {W : Twirp.Wording} {line : Conn} {clock : Int} {adv : List Nat}
    {op : PyOp} {id : CacheId} (ho : op.cache = some id) {recs : List Record}
    (hl : ((startCachesLogged W).run S.line (World.initial line clock adv)).1 = some recs)
    (hno : ∀ r ∈ recs, r.level = .error → ¬ Names id r) {s : Sys Conn}
    (h : Reachable S (Sys.initial (started S.line line clock adv)) s)
    {net : Call → ω → Option Resp × ω} {v v' : ω} (hb : Brings net v s)
    {p : Py PyVal} (hp : IsOp p op) {x : PyVal} (hr : p.run net v = (.ok x, v')) :
    ∃ part code payload, part <:+ bytesOf line.rd ∧ op.replyCode = some code ∧
      ReplyIn part code payload ∧ op.Stands payload x := by
  obtain ⟨c, i, r, hc, ha, hx⟩ := op_answered hb hp hr
  have hcall : c = getCall id := by cases op <;> cases ho <;> cases hc <;> rfl
  subst hcall
  obtain ⟨part, payload, val, h3, h4, h5, rfl⟩ := answer_read_told hS hE hl hno h ha
  refine ⟨part, requestCode id + 1, payload, h3, ?_, h4, stands ho h5 hx⟩
  cases op <;> cases ho <;> rfl

/-- **C96** Without the log: the same, or the result is that of the zero value, which is served for a
cache that could not be filled yet. -/
theorem C96_read_or_zero {ω : Type} {S : Setup Conn} (hS : S.line = scriptLine)
    (hE : ∀ a b, S.env a b → b.rd = a.rd) {line : Conn} {clock : Int} {adv : List Nat}
    {op : PyOp} {id : CacheId} (ho : op.cache = some id) {s : Sys Conn}
    (h : Reachable S (Sys.initial (started S.line line clock adv)) s)
    {net : Call → ω → Option Resp × ω} {v v' : ω} (hb : Brings net v s)
    {p : Py PyVal} (hp : IsOp p op) {x : PyVal} (hr : p.run net v = (.ok x, v')) :
    (∃ part code payload, part <:+ bytesOf line.rd ∧ op.replyCode = some code ∧
      ReplyIn part code payload ∧ op.Stands payload x) ∨ op.zero = some x := by
  obtain ⟨c, i, r, hc, ha, hx⟩ := op_answered hb hp hr
  have hcall : c = getCall id := by cases op <;> cases ho <;> cases hc <;> rfl
  subst hcall
  rcases answer_read_or_zero hS hE h ha with ⟨part, payload, val, h3, h4, h5, rfl⟩ | rfl
  · refine .inl ⟨part, requestCode id + 1, payload, h3, ?_, h4, stands ho h5 hx⟩
    cases op <;> cases ho <;> rfl
  · right
    cases op <;> cases ho <;> cases hx <;> rfl

/-- A unit that answers all questions of the start, the temperatures in two pieces; then nothing. -/
def talkative : Conn where
  rd := [.data (ack ++ frame 0x68 [3, 60, 32, 67, 65, 51, 53, 48, 32, 32, 32, 32, 32]),
    .data (ack ++ frame 0xE0 [0, 0, 11, 12, 13, 0, 1]), .data (ack ++ [7, 0xF0, 0, 0xD2, 9, 82, 50]),
    .data ((frame 0xD2 [82, 50, 80, 82, 52, 0, 0, 0, 0]).drop 7),
    .data (ack ++ frame 0x0C [50, 51, 4, 87, 0, 29]),
    .data (ack ++ frame 0xCE [15, 35, 55, 15, 30, 50, 35, 30, 2, 1, 75, 70, 0, 0]),
    .data (ack ++ frame 0xDA [0, 0, 0, 0, 0, 0, 0, 0, 1, 0, 0, 0, 0, 0, 0, 0, 0])]

/-- The hypotheses of `C96_read` are met: no failure in the log, and `get_temps` returns the
temperatures; the reply of the unit was that of the script. -/
example : (((startCachesLogged toyWording).run scripted.line (World.initial talkative 7 [])).1.any
      fun rs => rs.all fun r => r.level ≠ .error) = true ∧
    (∃ s, Reachable scripted (Sys.initial (started scripted.line talkative 7 [])) s ∧
      (match ((asyncOp (pyInit none (some 1)) .getTemps).run (answers s) ()).1 with
        | .ok (.temps o) => o == ⟨21, 5, 20, 21, 6, -20, -20, -20⟩ | _ => false) = true) := by
  refine ⟨by decide +kernel, exec_witness _ ([.arrive .getTemps] ++ steps 3 (.client 0))
    (fun _ _ => trivial) _ ?_⟩
  decide +kernel

/-- The second case of `C96_read_or_zero`: the connection is dead, and all temperatures are 0 degrees. -/
example : ∃ s, Reachable scripted (Sys.initial (started scripted.line { rd := [.fail []] } 7 [])) s ∧
      (match ((syncOp .getTemps).run (answers s) ()).1 with
        | .ok (.temps o) => o == ⟨0, 0, 0, 0, 0, 0, 0, 0⟩ | _ => false) = true := by
  refine exec_witness _ ([.arrive .getTemps] ++ steps 3 (.client 0)) (fun _ _ => trivial) _ ?_
  decide +kernel

end Comfo.Props
