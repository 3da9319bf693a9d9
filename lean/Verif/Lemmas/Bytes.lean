import Verif.Lemmas.Frame
import Verif.Lemmas.Served
/-! Helper lemmas: what was read before is never read again. -/
namespace Comfo
open Spec

theorem readLoop_suffix (room : Nat) (rd : List RdEv) : ∀ loop,
    (∀ rest, readLoop room loop rd = .blocked rest → bytesOf rest <:+ bytesOf rd) ∧
    (∀ bs err rest, readLoop room loop rd = .got bs err rest → bytesOf rest <:+ bytesOf rd) := by
  induction rd with
  | nil =>
    intro loop
    unfold readLoop
    split
    · exact ⟨by simp, by rintro bs err rest h; cases h; exact List.suffix_refl _⟩
    · exact ⟨by rintro rest h; cases h; exact List.suffix_refl _, by simp⟩
  | cons ev r ih =>
    intro loop
    unfold readLoop
    by_cases hr : room = 0
    · rw [if_pos hr]
      exact ⟨by simp, by rintro bs err rest h; cases h; exact List.suffix_refl _⟩
    · rw [if_neg hr]
      cases ev with
      | stall =>
        exact ⟨by rintro rest h; cases h; exact List.suffix_refl _, by simp⟩
      | data bs =>
        simp only
        split
        · rename_i hb
          subst hb
          split
          · exact ⟨by simp, by rintro bs err rest h; cases h; exact List.suffix_refl _⟩
          · exact ih _
        · split
          · exact ⟨by simp, by rintro bs err rest h; cases h; exact List.suffix_append _ _⟩
          · refine ⟨by simp, ?_⟩
            rintro b err rest h
            cases h
            refine ⟨bs.take room, ?_⟩
            simp only [bytesOf]
            rw [← List.append_assoc, List.take_append_drop]
      | fail bs =>
        simp only
        split
        · exact ⟨by simp, by rintro bs err rest h; cases h; exact List.suffix_append _ _⟩
        · refine ⟨by simp, ?_⟩
          rintro b err rest h
          cases h
          refine ⟨bs.take room, ?_⟩
          simp only [bytesOf]
          rw [← List.append_assoc, List.take_append_drop]

theorem scanLoop_suffix (n : Nat) : ∀ (s : Scanner) (rd : List RdEv),
    (∀ rest, scanLoop n s rd = .blocked rest → bytesOf rest <:+ bytesOf rd) ∧
    (∀ tok s' rest, scanLoop n s rd = .done tok s' rest → bytesOf rest <:+ bytesOf rd) := by
  induction n with
  | zero => intro s rd; exact ⟨by simp [scanLoop], by simp [scanLoop]⟩
  | succ n ih =>
    intro s rd
    unfold scanLoop
    split
    · exact ⟨by simp, by rintro _ _ rest h; cases h; exact List.suffix_refl _⟩
    · split
      · exact ⟨by simp, by rintro _ _ rest h; cases h; exact List.suffix_refl _⟩
      · split
        · exact ⟨by simp, by rintro _ _ rest h; cases h; exact List.suffix_refl _⟩
        · rename_i s2 _
          have hl := readLoop_suffix (s2.cap - (s2.start + s2.win.length)) rd 0
          split
          · rename_i rest he
            exact ⟨by rintro _ h; cases h; exact hl.1 _ he, by simp⟩
          · rename_i bs err rest he
            have h1 := hl.2 _ _ _ he
            have h2 := ih { s2 with win := s2.win ++ bs, err := err } rest
            exact ⟨fun r h => (h2.1 r h).trans h1, fun a b r h => (h2.2 a b r h).trans h1⟩

theorem scanTimeout_suffix {s s' : Scanner} {c c' : Conn} {r}
    (h : scanTimeout s c = some (r, s', c')) : bytesOf c'.rd <:+ bytesOf c.rd := by
  have hl := scanLoop_suffix (rdSize c.rd + 2) s c.rd
  unfold scanTimeout at h
  split at h
  · cases h
  · rename_i rest he
    cases h
    exact hl.1 _ he
  · rename_i tok s2 rest he
    simp only at h
    split at h <;> · cases h; exact hl.2 _ _ _ he

theorem readPacket_suffix (c : Conn) (e : Bool) : bytesOf (readPacket c e).2.rd <:+ bytesOf c.rd := by
  unfold readPacket
  split
  · exact List.suffix_refl _
  · rename_i h; exact scanTimeout_suffix h
  · rename_i pr s1 c1 h1
    have h1 := scanTimeout_suffix h1
    split
    · exact h1
    split
    · exact h1
    split
    · exact h1
    · rename_i h; exact (scanTimeout_suffix h).trans h1
    · rename_i h2
      have h2 := (scanTimeout_suffix h2).trans h1
      split
      · exact h2
      split
      · exact h2
      · rename_i h; exact (scanTimeout_suffix h).trans h2
      · rename_i h3
        have h3 := (scanTimeout_suffix h3).trans h2
        split
        · exact h3
        split
        · exact h3
        · exact h3

theorem write_rd (c : Conn) (bs : List UInt8) : (c.write bs).2.rd = c.rd := by
  unfold Conn.write
  split <;> rfl

theorem delivered_prefix (rd : List RdEv) : delivered rd <+: bytesOf rd := by
  induction rd with
  | nil => exact List.prefix_refl _
  | cons ev r ih =>
    cases ev with
    | data bs => exact (List.prefix_append_right_inj _).2 ih
    | fail bs => exact List.prefix_append _ _
    | stall => exact List.nil_prefix

theorem replyIn_prefix {a b : List UInt8} {cmd : UInt8} {pl : List UInt8} (h : ReplyIn a cmd pl)
    (hab : a <+: b) : ReplyIn b cmd pl := by
  obtain ⟨x, rfl⟩ := hab
  obtain ⟨d1, d2, d3, z, len, raw, ck, rest, h1, h2, h3, rfl, h4⟩ := h
  exact ⟨d1, d2, d3, z, len, raw, ck, rest ++ x, h1, h2, h3, by simp, h4⟩

/-- A packet that was read is in the bytes of the script. -/
theorem readPacket_reply {c c' : Conn} {q : Packet} (h : readPacket c true = (.ret q none, c')) :
    q = {} ∨ ReplyIn (bytesOf c.rd) q.command q.data := by
  rcases readPacket_sound h with hq | ⟨d1, d2, d3, tok, rest, h1, h2, h3, hn, hdel, hu⟩
  · exact .inl hq
  · right
    have h4 : ¬ tok.length < 4 := by
      intro h; rw [unmarshal_short h] at hu; simp at hu
    have hexp' := (Props.C04_total_and_strict tok).2.2.1 q hu
    have : q = { command := q.command, data := q.data } := by
      cases q; simp at hexp'; simp [hexp']
    rw [this] at hu
    obtain ⟨z, len, raw, ck, hw, hun, hlen, hck⟩ := ((Props.C04_total_and_strict tok).2.1 _ _).1 hu
    rw [hw] at hdel hn
    refine replyIn_prefix ⟨d1, d2, d3, z, len, raw, ck, rest, h1, h2, h3, ?_, hn, hun, hlen, hck⟩
      (delivered_prefix c.rd)
    rw [show delivered c.rd = _ from hdel]; simp

/-- Whatever was read so far, by whomever, was in the script. -/
structure FromScript (w : World Conn) (sh : Shared Conn) : Prop where
  rest : bytesOf sh.world.line.rd <:+ bytesOf w.line.rd
  got : ∀ t q, (t, Act.got true (q, none)) ∈ sh.trace → q = {} ∨
    ∃ part, part <:+ bytesOf w.line.rd ∧ ReplyIn part q.command q.data

theorem fromScript_act {w : World Conn} {t : Tid} {a : Act} {sh sh' : Shared Conn}
    (h : FromScript w sh) (ha : Acts scriptLine t a sh sh') : FromScript w sh' := by
  have keep : sh'.world.line.rd = sh.world.line.rd → (∀ q, a ≠ .got true (q, none)) →
      FromScript w sh' := by
    intro h1 h2
    refine ⟨by rw [h1]; exact h.rest, fun u q hm => ?_⟩
    rw [acts_trace ha] at hm
    rcases List.mem_append.mp hm with hm | hm
    · exact h.got u q hm
    · have := List.mem_singleton.mp hm
      exact absurd (Prod.mk.inj this).2.symm (h2 q)
  cases ha with
  | @wrote bs r line _ hr =>
    refine keep ?_ (by simp)
    show line.rd = _
    have : line = (sh.world.line.write bs).2 := by
      rw [show sh.world.line.write bs = (r, line) from hr]
    rw [this]
    exact write_rd _ _
  | @got e line q err _ hr =>
    have hrd : readPacket sh.world.line e = (.ret q err, line) := hr
    have h1 : bytesOf line.rd <:+ bytesOf sh.world.line.rd := by
      have := readPacket_suffix sh.world.line e
      rw [hrd] at this; exact this
    refine ⟨h1.trans h.rest, fun u q' hm => ?_⟩
    rcases List.mem_append.mp hm with hm | hm
    · exact h.got u q' hm
    · have := List.mem_singleton.mp hm
      simp only [Prod.mk.injEq, Act.got.injEq] at this
      obtain ⟨rfl, rfl, rfl, rfl⟩ := this
      rcases readPacket_reply hrd with hq | hq
      · exact .inl hq
      · exact .inr ⟨_, h.rest, hq⟩
  | @store _ id e => exact keep (by cases id <;> rfl) (by simp)
  | _ => exact keep rfl (by simp)

theorem fromScript_reach {S : Setup Conn} (hS : S.line = scriptLine)
    (hE : ∀ a b, S.env a b → b.rd = a.rd) {w : World Conn} {s : Sys Conn}
    (h : Reachable S (Sys.initial w) s) : FromScript w s.sh := by
  induction h with
  | start => exact ⟨List.suffix_refl _, by intro t q hm; simp [Sys.initial] at hm⟩
  | step _ hs ih =>
    have quiet : ∀ (sh : Shared Conn) (ext : List (Tid × Act)), FromScript w sh →
        (∀ t q, (t, Act.got true (q, none)) ∉ ext) → ∀ wd : World Conn,
        wd.line.rd = sh.world.line.rd → FromScript w { sh with world := wd, trace := sh.trace ++ ext } := by
      intro sh ext h1 h2 wd h3
      refine ⟨by show bytesOf wd.line.rd <:+ _; rw [h3]; exact h1.rest, fun t q hm => ?_⟩
      rcases List.mem_append.mp hm with hm | hm
      · exact h1.got t q hm
      · exact absurd hm (h2 t q)
    cases hs with
    | work hw =>
      rw [hS] at hw
      cases hw with
      | client i c a p sh _ _ ha => exact fromScript_act ih ha
      | worker a p sh _ ha => exact fromScript_act ih ha
      | flush i c t p _ _ _ => exact quiet _ [_] ih (by simp) _ rfl
      | flushed i c b p q _ _ _ => exact quiet _ [_, _] ih (by simp) _ rfl
    | tick k hw => exact ih
    | arrive c hc => exact ih
    | environment line ns he =>
      exact ⟨by show bytesOf line.rd <:+ _; rw [hE _ _ he]; exact ih.rest, ih.got⟩

end Comfo
