import Verif.Lemmas.Logging
import Verif.Lemmas.Post
import Verif.Props.Path
/-! # The log: C92, C93 -/
namespace Comfo.Props
open Spec Comfo.Pb Comfo.Twirp Comfo.Json Comfo.Log

theorem says_value {v : Value} (h : InRange v) : Says v v.read := by
  cases v with
  | str s => rfl
  | dur d => exact read_durString d (Nat.lt_of_le_of_lt h (by decide))

theorem lit_word {t : Bytes} (h : t.all bare = true) (hn : t ≠ []) : Word t t :=
  word_bare (List.all_eq_true.1 h) hn

/-- The attributes as pairs. -/
def pairOf (U : Unicode) (a : Bytes × Value) : Pair :=
  ⟨stringText U a.1, valueText U a.2, a.1, a.2.read⟩

theorem pairOf_good (U : Unicode) (a : Bytes × Value) : (pairOf U a).Good :=
  ⟨word_string U a.1, word_value U a.2⟩

/-- The time as a pair. -/
def timePair (time : Bytes) : Pair := ⟨lit "time", time, lit "time", time⟩

/-- What follows the time, as pairs. -/
def pairsOf (U : Unicode) (r : Record) : List Pair :=
  ⟨lit "level", stringText U r.level.name, lit "level", r.level.name⟩ ::
    ⟨lit "msg", stringText U r.msg, lit "msg", r.msg⟩ :: r.attrs.map (pairOf U)

theorem line_eq (U : Unicode) (time : Bytes) (r : Record) : line U time r =
    ((timePair time).text ++ (pairsOf U r).flatMap fun q => 32 :: q.text) ++ [10] := by
  have e : ∀ as : List (Bytes × Value), as.flatMap (attrText U) =
      (as.map (pairOf U)).flatMap fun q => 32 :: q.text := by
    intro as
    induction as with
    | nil => rfl
    | cons a as ih => rw [List.flatMap_cons, ih]; rfl
  have e1 : lit "time=" = lit "time" ++ [61] := by decide
  have e2 : lit " level=" = 32 :: lit "level" ++ [61] := by decide
  have e3 : lit " msg=" = 32 :: lit "msg" ++ [61] := by decide
  rw [line, e, e1, e2, e3]
  simp [Pair.text, timePair, pairsOf]

theorem pairsOf_cases {U : Unicode} {r : Record} {q : Pair} (h : q ∈ pairsOf U r) :
    (q.kt = lit "level" ∧ q.k = q.kt ∧ q.v = r.level.name ∧ q.vt = stringText U q.v) ∨
    (q.kt = lit "msg" ∧ q.k = q.kt ∧ q.v = r.msg ∧ q.vt = stringText U q.v) ∨
    ∃ a, q = pairOf U a := by
  unfold pairsOf at h
  rcases List.mem_cons.1 h with rfl | h
  · exact .inl ⟨rfl, rfl, rfl, rfl⟩
  rcases List.mem_cons.1 h with rfl | h
  · exact .inr (.inl ⟨rfl, rfl, rfl, rfl⟩)
  · obtain ⟨a, -, rfl⟩ := List.mem_map.1 h
    exact .inr (.inr ⟨a, rfl⟩)

theorem saysAll_attrs {as : List (Bytes × Value)} (h : ∀ a ∈ as, InRange a.2) (U : Unicode) :
    SaysAll as ((as.map (pairOf U)).map fun q => (q.k, q.v)) := by
  induction as with
  | nil => trivial
  | cons a as ih => exact ⟨rfl, says_value (h a (by simp)), ih fun x hx => h x (by simp [hx])⟩

/-- The line for a record reads as the record, and it is one line. -/
theorem read_line (U : Unicode) {time : Bytes} (ht : Stamp time) {r : Record}
    (h : ∀ a ∈ r.attrs, InRange a.2) :
    ∃ l ps, line U time r = l ++ [10] ∧ 10 ∉ l ∧ readLine l = some ps ∧ Tells time r ps := by
  have hl : (lit "level").all bare = true ∧ lit "level" ≠ [] ∧ 10 ∉ lit "level" := by decide
  have hm : (lit "msg").all bare = true ∧ lit "msg" ≠ [] ∧ 10 ∉ lit "msg" := by decide
  have hq : ∀ q ∈ pairsOf U r, q.Good ∧ 10 ∉ q.kt ∧ 10 ∉ q.vt := by
    intro q hq
    rcases pairsOf_cases hq with ⟨h1, h2, -, h4⟩ | ⟨h1, h2, -, h4⟩ | ⟨a, rfl⟩
    · unfold Pair.Good
      rw [h2, h4, h1]
      exact ⟨⟨lit_word hl.1 hl.2.1, word_string _ _⟩, hl.2.2, string_feed _ _⟩
    · unfold Pair.Good
      rw [h2, h4, h1]
      exact ⟨⟨lit_word hm.1 hm.2.1, word_string _ _⟩, hm.2.2, string_feed _ _⟩
    · exact ⟨pairOf_good U a, string_feed _ _, value_feed _ _⟩
  have ht' : (timePair time).Good ∧ 10 ∉ (timePair time).kt ∧ 10 ∉ (timePair time).vt :=
    ⟨⟨lit_word (t := lit "time") (by decide) (by decide), word_bare ht.2 ht.1⟩,
      (by decide : 10 ∉ lit "time"), bare_feed ht.2⟩
  have feed : ∀ q : Pair, 10 ∉ q.kt → 10 ∉ q.vt → 10 ∉ q.text := by
    intro q h1 h2 hb
    rcases List.mem_append.1 hb with hb | hb
    · exact h1 hb
    · rcases List.mem_cons.1 hb with hb | hb
      · exact absurd hb (by decide)
      · exact h2 hb
  refine ⟨_, _, line_eq U time r, ?_, read_pairs ht'.1 (fun q h => (hq q h).1) _ ?_, ?_⟩
  · intro hb
    rcases List.mem_append.1 hb with hb | hb
    · exact feed _ ht'.2.1 ht'.2.2 hb
    · obtain ⟨q, hqm, hb⟩ := List.mem_flatMap.1 hb
      rcases List.mem_cons.1 hb with hb | hb
      · exact absurd hb (by decide)
      · exact feed _ (hq q hqm).2.1 (hq q hqm).2.2 hb
  · have : ∀ qs : List Pair, qs.length ≤ (qs.flatMap fun q => 32 :: q.text).length := by
      intro qs
      induction qs with
      | nil => simp
      | cons q qs ih => simp at ih ⊢; omega
    have := this (pairsOf U r)
    have h4 : 0 < (timePair time).text.length := by simp [Pair.text]; omega
    rw [List.length_append]
    omega
  · refine ⟨rfl, rfl, rfl, ?_, rfl, rfl, saysAll_attrs h U⟩
    show r.level.name = _
    cases r.level <;> rfl

/-- **C92** What is written to the log reads, line by line, as the records that were to be logged:
whatever is in their strings, one record is one line, and no text can pass for another attribute or
another record. -/
theorem C92_log (U : Unicode) (debug : Bool) (rs : List (Bytes × Record))
    (h : ∀ x ∈ rs, Stamp x.1 ∧ ∀ a ∈ x.2.attrs, InRange a.2) :
    ∃ ls, readLog (output U debug rs) = some ls ∧ Logs debug rs ls := by
  have key : ∃ ts ls, linesOf (output U debug rs) = some ts ∧ ts.mapM readLine = some ls ∧
      Logs debug rs ls := by
    induction rs with
    | nil => exact ⟨[], [], rfl, rfl, trivial⟩
    | cons x rs ih =>
      obtain ⟨t, r⟩ := x
      obtain ⟨ts, ls, h1, h2, h3⟩ := ih fun x hx => h x (by simp [hx])
      by_cases he : r.level = .debug ∧ debug = false
      · refine ⟨ts, ls, ?_, h2, ?_⟩
        · rw [output, List.filter_cons_of_neg (by simp [he.1, he.2, enabled])]
          exact h1
        · cases ls with
          | nil => exact ⟨he, h3⟩
          | cons l ls => exact .inl ⟨he.1, he.2, h3⟩
      · obtain ⟨h4, h5⟩ := h (t, r) (by simp)
        obtain ⟨l, ps, e1, e2, e3, e4⟩ := read_line U h4 h5
        have hen : enabled debug r.level = true := by
          cases hl : r.level <;> simp_all [enabled]
        refine ⟨l :: ts, ps :: ls, ?_, ?_, .inr ⟨he, e4, h3⟩⟩
        · rw [output, List.filter_cons_of_pos (by exact hen), List.flatMap_cons]
          simp only [e1, List.append_assoc]
          show linesOf (l ++ 10 :: output U debug rs) = _
          rw [lines_cons e2, h1]
          rfl
        · rw [List.mapM_cons, e3, h2]
          rfl
  obtain ⟨ts, ls, h1, h2, h3⟩ := key
  exact ⟨ls, by rw [readLog, h1]; exact h2, h3⟩

theorem timeSub_range (a b : Int) : (timeSub a b).natAbs ≤ 9223372036854775808 ∧
    ((a - b).natAbs < 9223372036854775808 → timeSub a b = a - b) := by
  unfold timeSub
  split
  · omega
  split <;> omega

/-- **C92** A request leaves exactly one record, of level debug, if its path is below the prefix of the
service, with its method, its URI and the time it took; otherwise none. What the server does and answers
is the same as without a log. -/
theorem C92_request (cd : Codec) (cv : FloatConv) (uri : Bytes) (r : HttpReq)
    {P : List Act → HttpAns → Prop} (h : (serve cleanPath cd cv r).Post P) :
    (serveLogged cleanPath cd cv uri r).Post fun acts x =>
      (Below r → ∃ t₀ t₁ inner rec, acts = .now t₀ :: (inner ++ [.now t₁]) ∧ P inner x.1 ∧ x.2 = [rec] ∧
        RequestRecord (r.method.flatMap fun c => utf8Full c.toNat) uri t₀ t₁ rec) ∧
      (¬ Below r → P acts x.1 ∧ x.2 = []) := by
  have hb : (cleanPath r.path = r.path ∧ comfoPathPrefix.isPrefixOf r.path = true) ↔ Below r := by
    rw [clean_iff, List.isPrefixOf_iff_prefix]
    constructor
    · rintro ⟨h1, rest, h2⟩
      exact ⟨h1, rest, h2.symm⟩
    · rintro ⟨h1, rest, h2⟩
      exact ⟨h1, rest, h2.symm⟩
  unfold serveLogged
  by_cases hl : cleanPath r.path = r.path ∧ comfoPathPrefix.isPrefixOf r.path = true
  · rw [if_pos hl]
    simp only [Prog.Post]
    intro t₀
    refine h.seq fun inner a ha => ?_
    simp only [Prog.Post]
    intro t₁
    refine ⟨fun _ => ⟨t₀, t₁, inner, _, rfl, ha, rfl, ?_⟩, fun hn => absurd (hb.1 hl) hn⟩
    have e : (fun c : Char => utf8Of c.toNat) = fun c => utf8Full c.toNat := by
      funext c; exact utf8_eq _
    rw [e]
    exact ⟨rfl, rfl, _, rfl, (timeSub_range t₁ t₀).1, (timeSub_range t₁ t₀).2⟩
  · rw [if_neg hl]
    refine h.seq fun inner a ha => ?_
    simp only [Prog.Post, List.append_nil]
    exact ⟨fun hn => absurd (hb.2 hn) hl, fun _ => ⟨ha, trivial⟩⟩

/-- **C92** The line of a request reads as its method, its URI and its time, whatever bytes the client
has sent. -/
theorem C92_request_line (U : Unicode) {time method uri : Bytes} (ht : Stamp time) {t₀ t₁ : Int}
    {rec : Record} (h : RequestRecord method uri t₀ t₁ rec) :
    ∃ d, readLog (output U true [(time, rec)]) = some [[(lit "time", time), (lit "level", lit "DEBUG"),
      (lit "msg", lit "Request"), (lit "method", method), (lit "URI", uri), (lit "route", lit "twirp"),
      (lit "duration", d)]] ∧ ((t₁ - t₀).natAbs < 9223372036854775808 → readDuration d = some (t₁ - t₀)) ∧
    output U false [(time, rec)] = [] := by
  obtain ⟨lv, msg, as⟩ := rec
  obtain ⟨rfl, rfl, x, rfl, h1, h2⟩ := h
  obtain ⟨ls, h3, h4⟩ := C92_log U true
    [(time, ⟨.debug, lit "Request", [(lit "method", .str method), (lit "URI", .str uri),
      (lit "route", .str (lit "twirp")), (lit "duration", .dur x)]⟩)] (by
      intro y hy
      rw [List.mem_singleton] at hy
      subst hy
      refine ⟨ht, ?_⟩
      intro a ha
      simp only [List.mem_cons, List.not_mem_nil, or_false] at ha
      rcases ha with rfl | rfl | rfl | rfl
      · trivial
      · trivial
      · trivial
      · exact h1)
  cases ls with
  | nil => exact absurd h4.1.2 (by decide)
  | cons l ls =>
    rcases h4 with ⟨-, h4, -⟩ | ⟨-, h4, h5⟩
    · exact absurd h4 (by decide)
    · cases ls with
      | cons _ _ => cases h5
      | nil =>
        match l, h4 with
        | [(a1, b1), (a2, b2), (a3, b3), (a4, b4), (a5, b5), (a6, b6), (a7, b7)], h4 =>
          obtain ⟨e1, e2, e3, e4, e5, e6, e7, e8, e9, e10, e11, e12, e13, e14, -⟩ := h4
          simp only [Says] at e8 e10 e12 e14
          simp only at e1 e2 e3 e4 e5 e6 e7 e9 e11 e13
          subst e1 e2 e3 e4 e5 e6 e7 e8 e9 e10 e11 e12 e13
          exact ⟨b7, h3, fun h => by rw [e14, h2 h], rfl⟩
        | [], h4 => cases h4
        | [_], h4 => cases h4
        | [_, _], h4 => cases h4
        | [_, _, _], h4 => exact h4.2.2.2.2.2.2.elim
        | [_, _, _, _], h4 => exact h4.2.2.2.2.2.2.2.2.elim
        | [_, _, _, _, _], h4 => exact h4.2.2.2.2.2.2.2.2.2.2.elim
        | [_, _, _, _, _, _], h4 => exact h4.2.2.2.2.2.2.2.2.2.2.2.2.elim
        | _ :: _ :: _ :: _ :: _ :: _ :: _ :: _ :: _, h4 => exact h4.2.2.2.2.2.2.2.2.2.2.2.2.2.2.elim

/-- The logging of a refresh changes nothing else. -/
theorem updateLogged_erase (W : Wording) (id : CacheId) (force : Bool) :
    (updateLogged W id force).bind (fun _ => .ret ()) = update id force := by
  have e : ∀ now, (Prog.note id now <| id.fetch.bind fun (v, err) =>
      match err with
      | none => .store id { val := v, last := now } <| .unlock (.cache id) <| .ret ([] : List Record)
      | some e => .unlock (.cache id) <| .ret [updateRecord W id e]).bind (fun _ => .ret ()) =
      (Prog.note id now <| id.fetch.bind fun (v, err) =>
      match err with
      | none => .store id { val := v, last := now } <| .unlock (.cache id) <| .ret ()
      | some _ => .unlock (.cache id) <| .ret ()) := by
    intro now
    simp only [Prog.bind, bind_assoc]
    congr 2
    funext x
    obtain ⟨v, err⟩ := x
    cases err <;> rfl
  unfold updateLogged update
  cases force with
  | true =>
    simp only [Prog.bind, if_true]
    congr 2
    funext now
    exact e now
  | false =>
    simp only [Prog.bind, Bool.false_eq_true, if_false]
    congr 2
    funext now
    congr 1
    funext c
    split
    · rfl
    · exact e now

theorem reports_update (W : Wording) (id : CacheId) (e : Err) : Reports W id e (updateRecord W id e) := by
  refine ⟨rfl, ?_, rfl⟩
  have h : ∀ id, (cacheTitle id).isPrefixOf (updateMsg id) = true := by
    intro id
    cases id <;> decide +kernel
  obtain ⟨rest, hr⟩ := List.isPrefixOf_iff_prefix.1 (h id)
  exact ⟨rest, hr.symm⟩

theorem effects_events {cmd : UInt8} {data : List UInt8} {x : Bool} {evs : List IoEv}
    {r : Packet × Option Err} (h : Transaction cmd data x evs r) : effects (evs.map toAct) = evs.map toAct := by
  cases h <;> rfl

theorem effects_append' (a b : List Act) : effects (a ++ b) = effects a ++ effects b :=
  List.filter_append ..

theorem post_refreshLogged (W : Wording) (id : CacheId) (t : Int) :
    (Prog.note id t <| id.fetch.bind fun (v, err) =>
      match err with
      | none => .store id { val := v, last := t } <| .unlock (.cache id) <| .ret []
      | some e => .unlock (.cache id) <| .ret [updateRecord W id e]).Post fun acts recs =>
      ∃ evs q e, Transaction (requestCode id) [] true evs (q, e) ∧
        ((∃ v, outcome id q e = some v ∧
          effects acts = .note id t :: (evs.map toAct ++ [.store id ⟨v, t⟩]) ∧ recs = []) ∨
         (outcome id q e = none ∧ effects acts = .note id t :: evs.map toAct ∧
          ∃ x r, recs = [r] ∧ Reports W id x r ∧ ∀ y, e = some y → x = y)) := by
  simp only [Prog.Post]
  refine (post_fetch id).seq ?_
  rintro as ⟨v, e'⟩ ⟨q, e, ⟨evs, h1, rfl⟩, h2, h3, h4⟩
  simp only at h2 h3 h4
  have he : ∀ more : List Act, effects (.note id t :: ((.lock .pm :: evs.map toAct ++ [.unlock .pm]) ++ more)) =
      .note id t :: (evs.map toAct ++ effects more) := by
    intro more
    have : effects (.note id t :: ((.lock .pm :: evs.map toAct ++ [.unlock .pm]) ++ more)) =
        .note id t :: (effects (evs.map toAct) ++ (effects [.unlock .pm] ++ effects more)) := by
      rw [← effects_append', ← effects_append', ← List.append_assoc]; rfl
    rw [this, effects_events h1]
    rfl
  cases e' with
  | none =>
    have hd := h3 rfl
    obtain ⟨rfl, -⟩ := h2.1 rfl
    simp only [Prog.Post]
    exact ⟨evs, q, none, h1, .inl ⟨v, hd, he _, trivial⟩⟩
  | some x =>
    have ho : outcome id q e = none := by
      unfold outcome
      cases e with
      | some _ => rfl
      | none =>
        cases hdd : decode id q.data with
        | none => rfl
        | some x => simp [hdd] at h2
    simp only [Prog.Post]
    refine ⟨evs, q, e, h1, .inr ⟨ho, ?_, x, _, rfl, reports_update W id x, ?_⟩⟩
    · rw [he]; simp [effects]
    · intro y hy
      exact Option.some.inj (h4 y hy)

/-- **C93** A refresh of a cache is logged if and only if it failed: then exactly one record of level
error is written, which names the cache and the error of the query. -/
theorem C93_refresh (W : Wording) (id : CacheId) (force : Bool) :
    (updateLogged W id force).Post fun acts recs =>
      (effects acts = [] ∧ recs = []) ∨
      ∃ t evs q e, Transaction (requestCode id) [] true evs (q, e) ∧
        ((∃ v, outcome id q e = some v ∧
          effects acts = .note id t :: (evs.map toAct ++ [.store id ⟨v, t⟩]) ∧ recs = []) ∨
         (outcome id q e = none ∧ effects acts = .note id t :: evs.map toAct ∧
          ∃ x r, recs = [r] ∧ Reports W id x r ∧ ∀ y, e = some y → x = y)) := by
  unfold updateLogged
  cases force with
  | true =>
    simp only [Prog.Post, if_true]
    intro t
    have h := post_refreshLogged W id t
    simp only [Prog.Post] at h
    exact h.mono fun as recs h => .inr ⟨t, h⟩
  | false =>
    simp only [Prog.Post, Bool.false_eq_true, if_false]
    intro t c
    split
    · exact .inl ⟨rfl, rfl⟩
    · have h := post_refreshLogged W id t
      simp only [Prog.Post] at h ⊢
      exact h.mono fun as recs h => .inr ⟨t, h⟩

/-- **C93** The line of a failed refresh names the cache and the error, and no line can be taken for
one about another cache. -/
theorem C93_line (U : Unicode) (debug : Bool) {time : Bytes} (ht : Stamp time) {W : Wording} {id : CacheId}
    {e : Err} {r : Record} (h : Reports W id e r) :
    ∃ msg rest, msg = cacheTitle id ++ rest ∧
      readLog (output U debug [(time, r)]) = some [[(lit "time", time), (lit "level", lit "ERROR"),
        (lit "msg", msg), (lit "error", errorText W (.lib e))]] ∧
      ∀ id' rest', msg = cacheTitle id' ++ rest' → id' = id := by
  obtain ⟨lv, msg, as⟩ := r
  obtain ⟨rfl, ⟨rest, rfl⟩, rfl⟩ := h
  refine ⟨_, rest, rfl, ?_, ?_⟩
  · obtain ⟨ls, h3, h4⟩ := C92_log U debug
      [(time, ⟨.error, cacheTitle id ++ rest, [(lit "error", .str (errorText W (.lib e)))]⟩)] (by
        intro y hy
        rw [List.mem_singleton] at hy
        subst hy
        refine ⟨ht, ?_⟩
        intro a ha
        rw [List.mem_singleton] at ha
        subst ha
        trivial)
    cases ls with
    | nil => cases h4.1.1
    | cons l ls =>
      rcases h4 with ⟨h4, -, -⟩ | ⟨-, h4, h5⟩
      · cases h4
      · cases ls with
        | cons _ _ => cases h5
        | nil =>
          match l, h4 with
          | [(a1, b1), (a2, b2), (a3, b3), (a4, b4)], h4 =>
            obtain ⟨e1, e2, e3, e4, e5, e6, e7, e8, -⟩ := h4
            simp only [Says] at e8
            simp only at e1 e2 e3 e4 e5 e6 e7
            subst e1 e2 e3 e4 e5 e6 e7 e8
            exact h3
          | [], h4 => cases h4
          | [_], h4 => cases h4
          | [_, _], h4 => cases h4
          | [_, _, _], h4 => exact h4.2.2.2.2.2.2.elim
          | _ :: _ :: _ :: _ :: _ :: _, h4 => exact h4.2.2.2.2.2.2.2.2.elim
  · intro id' rest' h
    have key : ∀ a b : CacheId, a ≠ b → ∃ n, (cacheTitle a)[n]? ≠ (cacheTitle b)[n]? ∧
        n < (cacheTitle a).length ∧ n < (cacheTitle b).length := by
      intro a b hab
      cases a <;> cases b <;> first
        | exact absurd rfl hab
        | exact ⟨0, by decide +kernel⟩
        | exact ⟨1, by decide +kernel⟩
        | exact ⟨2, by decide +kernel⟩
        | exact ⟨3, by decide +kernel⟩
    by_cases hi : id' = id
    · exact hi
    · obtain ⟨n, h1, h2, h3⟩ := key id' id hi
      have := congrArg (fun l => l[n]?) h
      simp only [List.getElem?_append_left h2, List.getElem?_append_left h3] at this
      exact absurd this.symm h1

/-- A client sends a URI with quotes, spaces, line feeds, a character that is not ASCII and bytes that
are no characters: one line. -/
example : let uri := lit "/twirp/comfo.api.Comfo/\"\n level=ERROR msg=x y=\\" ++ [0xC3, 0xA9, 0xFF, 0x7F, 0xE2, 0x80, 0xA8]
    let U : Unicode := ⟨fun c => c != 0x2028, fun c => c == 0x2028⟩
    output U true [(lit "2026-11-16T23:00:00.000Z", requestRecord (lit "POST") uri 5 1500005)] =
      lit "time=2026-11-16T23:00:00.000Z level=DEBUG msg=Request method=POST URI=\"/twirp/comfo.api.Comfo/\\\"\\n level=ERROR msg=x y=\\\\" ++
        [0xC3, 0xA9] ++ lit "\\xff\\x7f\\u2028\" route=twirp duration=1.5ms\n" := by
  decide +kernel

/-- A failed refresh. -/
example (W : Wording) : updateRecord W .temps .timeout =
    ⟨.error, lit "TempCache.Update() - Updating temperature cache",
      [(lit "error", .str (lit "operation timed out"))]⟩ := rfl

end Comfo.Props
