import Verif.Spec.Http
import Verif.Lemmas.Served
/-!
# Routing and connecting: C53, C54
-/
namespace Comfo.Props
open Spec

/-! ## Strings -/

theorem splitOn_ne_nil (c : Char) (s : Str) : splitOn c s ≠ [] := by
  cases s with
  | nil => simp [splitOn]
  | cons x xs =>
    simp only [splitOn]
    split
    · simp
    · split <;> simp

theorem join_split (c : Char) (s : Str) : joinWith c (splitOn c s) = s := by
  induction s with
  | nil => rfl
  | cons x xs ih =>
    simp only [splitOn]
    split
    · rename_i h
      match hs : splitOn c xs, splitOn_ne_nil c xs with
      | p :: ps, _ => rw [hs] at ih; simp [joinWith, ih, h]
    · match hs : splitOn c xs, splitOn_ne_nil c xs with
      | [p], _ => rw [hs] at ih; simp only [joinWith] at ih ⊢; rw [ih]
      | p :: q :: ps, _ =>
        rw [hs] at ih
        simp only [joinWith] at ih ⊢
        rw [← ih]; rfl

theorem split_single {c : Char} {s : Str} (h : c ∉ s) : splitOn c s = [s] := by
  induction s with
  | nil => rfl
  | cons x xs ih =>
    simp only [List.mem_cons, not_or] at h
    simp [splitOn, Ne.symm h.1, ih h.2]

theorem split_append {c : Char} {p s : Str} (h : c ∉ p) :
    splitOn c (p ++ c :: s) = p :: splitOn c s := by
  induction p with
  | nil => simp [splitOn]
  | cons x xs ih =>
    simp only [List.mem_cons, not_or] at h
    simp [splitOn, Ne.symm h.1, ih h.2]

theorem join_append {c : Char} {ps : List Str} (h : ps ≠ []) (a b : Str) :
    joinWith c (ps ++ [a, b]) = joinWith c ps ++ c :: a ++ c :: b := by
  induction ps with
  | nil => exact absurd rfl h
  | cons p ps ih =>
    cases ps with
    | nil => simp [joinWith]
    | cons q qs =>
      have := ih (by simp)
      simp only [List.cons_append, joinWith] at this ⊢
      rw [this]; simp

theorem slash_split {c : Char} {s p : Str} (h : p ∈ splitOn c s) : c ∉ p := by
  induction s generalizing p with
  | nil => simp only [splitOn, List.mem_singleton] at h; subst h; simp
  | cons x xs ih =>
    simp only [splitOn] at h
    split at h
    · rcases List.mem_cons.1 h with rfl | h
      · simp
      · exact ih h
    · rename_i hx
      match hs : splitOn c xs, splitOn_ne_nil c xs with
      | q :: qs, _ =>
        rw [hs] at h ih
        rcases List.mem_cons.1 h with rfl | h
        · have := ih (p := q) (by simp)
          simp only [List.mem_cons, not_or]
          exact ⟨Ne.symm hx, this⟩
        · exact ih (by simp [h])

theorem last_two {l : List Str} (h : 2 ≤ l.length) :
    l = l.take (l.length - 2) ++ [l.getD (l.length - 2) [], l.getD (l.length - 1) []] := by
  have h1 : l.drop (l.length - 2) = [l.getD (l.length - 2) [], l.getD (l.length - 1) []] := by
    rw [List.drop_eq_getElem_cons (by omega), List.drop_eq_getElem_cons (by omega)]
    rw [List.drop_eq_nil_of_le (by omega)]
    have : l.length - 2 + 1 = l.length - 1 := by omega
    have h3 : l.length - 2 < l.length := by omega
    have h4 : l.length - 1 < l.length := by omega
    simp [this, List.getD, h3, h4]
  rw [← h1, List.take_append_drop]

theorem parse_iff (path m : Str) :
    parseTwirpPath path = ("/twirp".toList, "comfo.api.Comfo".toList, m) ↔
      path = "/twirp/comfo.api.Comfo/".toList ++ m ∧ '/' ∉ m := by
  constructor
  · intro h
    unfold parseTwirpPath at h
    simp only at h
    split at h
    · cases h
    · rename_i hl
      have hl2 := last_two (l := splitOn '/' path) (by omega)
      simp only [Prod.mk.injEq] at h
      obtain ⟨h1, h2, h3⟩ := h
      have hne : (splitOn '/' path).take ((splitOn '/' path).length - 2) ≠ [] := by
        intro h0
        rw [h0] at h1
        cases h1
      have hj := join_split '/' path
      rw [hl2, join_append hne, h1, h2, h3] at hj
      refine ⟨hj.symm, slash_split (s := path) ?_⟩
      rw [hl2, ← h3]
      simp
  · rintro ⟨rfl, hm⟩
    have h1 : splitOn '/' ("/twirp/comfo.api.Comfo/".toList ++ m) =
        [[], "twirp".toList, "comfo.api.Comfo".toList, m] := by
      have e : "/twirp/comfo.api.Comfo/".toList ++ m =
          [] ++ '/' :: ("twirp".toList ++ '/' :: ("comfo.api.Comfo".toList ++ '/' :: m)) := rfl
      rw [e, split_append (by decide), split_append (by decide), split_append (by decide),
        split_single hm]
    unfold parseTwirpPath
    rw [h1]
    rfl

theorem ofName_iff (name : Str) (m : Method) :
    Method.ofName name = some m ↔ name = methodName m := by
  constructor
  · intro h
    unfold Method.ofName at h
    repeat' (split at h; · cases h; assumption)
    cases h
  · rintro rfl
    cases m <;> rfl

theorem slash_name (m : Method) : '/' ∉ methodName m := by cases m <;> decide

/-! ## Content types -/

theorem dropWhile_split (p : Char → Bool) (s : Str) :
    ∃ a, s = a ++ s.dropWhile p ∧ (∀ c ∈ a, p c = true) := by
  induction s with
  | nil => exact ⟨[], rfl, by simp⟩
  | cons x xs ih =>
    by_cases hx : p x = true
    · obtain ⟨a, h1, h2⟩ := ih
      refine ⟨x :: a, ?_, ?_⟩
      · rw [List.dropWhile_cons_of_pos hx, List.cons_append, ← h1]
      · intro c hc
        rcases List.mem_cons.1 hc with rfl | hc
        · exact hx
        · exact h2 c hc
    · exact ⟨[], by rw [List.dropWhile_cons_of_neg hx]; rfl, by simp⟩

theorem dropWhile_all {p : Char → Bool} {a s : Str} (h : ∀ c ∈ a, p c = true) :
    (a ++ s).dropWhile p = s.dropWhile p := by
  induction a with
  | nil => rfl
  | cons x xs ih =>
    rw [List.cons_append, List.dropWhile_cons_of_pos (h x (by simp)),
      ih (fun c hc => h c (by simp [hc]))]

theorem dropWhile_head {p : Char → Bool} {s : Str} (h : ∀ c, s.head? = some c → p c = false) :
    s.dropWhile p = s := by
  cases s with
  | nil => rfl
  | cons x xs => exact List.dropWhile_cons_of_neg (by simp [h x rfl])

theorem trim_iff {s t : Str} (ht : t ≠ []) (h1 : ∀ c, t.head? = some c → isSpace c = false)
    (h2 : ∀ c, t.reverse.head? = some c → isSpace c = false) :
    trimStr s = t ↔ ∃ a b, s = a ++ t ++ b ∧ (∀ c ∈ a, isSpace c = true) ∧
      ∀ c ∈ b, isSpace c = true := by
  constructor
  · rintro rfl
    obtain ⟨a, ha, ha'⟩ := dropWhile_split isSpace s
    obtain ⟨b, hb, hb'⟩ := dropWhile_split isSpace (s.dropWhile isSpace).reverse
    refine ⟨a, b.reverse, ?_, ha', by simpa using hb'⟩
    have : s.dropWhile isSpace = trimStr s ++ b.reverse := by
      rw [trimStr, ← List.reverse_append, ← hb, List.reverse_reverse]
    rw [List.append_assoc, ← this]
    exact ha
  · rintro ⟨a, b, rfl, ha, hb⟩
    have hd : (a ++ t ++ b).dropWhile isSpace = t ++ b := by
      rw [List.append_assoc, dropWhile_all ha, dropWhile_head]
      intro c hc
      cases t with
      | nil => exact absurd rfl ht
      | cons x xs => exact h1 c hc
    rw [trimStr, hd, List.reverse_append, dropWhile_all (by simpa using hb), dropWhile_head h2,
      List.reverse_reverse]

theorem lower_space (c : Char) : isSpace (toLower c) = isSpace c := by
  unfold toLower
  split
  · rename_i h
    have e : ∀ n, n < 91 → 65 ≤ n →
        isSpace (Char.ofNat (n + 32)) = isSpace (Char.ofNat n) := by decide
    have h1 : 65 ≤ c.toNat := h.1
    have h2 : c.toNat ≤ 90 := h.2
    have := e c.toNat (by omega) h1
    rwa [Char.ofNat_toNat] at this
  · split
    · rename_i h
      have : c = Char.ofNat 0x130 := by rw [← h, Char.ofNat_toNat]
      subst this; decide
    · split
      · rename_i h
        have : c = Char.ofNat 0x212A := by rw [← h, Char.ofNat_toNat]
        subst this; decide
      · rfl

theorem takeWhile_iff (c : Char) (s t : Str) :
    s.takeWhile (· ≠ c) = t ↔
      c ∉ t ∧ ∃ params, s = t ++ params ∧ (params = [] ∨ ∃ p, params = c :: p) := by
  constructor
  · rintro rfl
    induction s with
    | nil => exact ⟨by simp, [], rfl, .inl rfl⟩
    | cons x xs ih =>
      by_cases hx : x = c
      · subst hx
        exact ⟨by simp, x :: xs, by simp, .inr ⟨xs, rfl⟩⟩
      · obtain ⟨h1, ps, h2, h3⟩ := ih
        rw [List.takeWhile_cons_of_pos (by simpa using hx)]
        refine ⟨by simp only [List.mem_cons, not_or]; exact ⟨Ne.symm hx, h1⟩, ps, ?_, h3⟩
        rw [List.cons_append, ← h2]
  · rintro ⟨h, ps, rfl, h3⟩
    rw [List.takeWhile_append_of_pos]
    · rcases h3 with rfl | ⟨p, rfl⟩ <;> simp
    · intro x hx
      simp only [ne_eq, decide_not, Bool.not_eq_eq_eq_not, Bool.not_true, decide_eq_false_iff_not]
      rintro rfl
      exact h hx

theorem media_iff (header : Str) (f : Fmt) :
    trimStr ((header.takeWhile (· ≠ ';')).map toLower) = mediaName f ↔ MediaType f header := by
  rw [trim_iff (by cases f <;> decide) (by cases f <;> decide) (by cases f <;> decide)]
  constructor
  · rintro ⟨a, b, h, ha, hb⟩
    obtain ⟨u, b', h1, h2, h3⟩ := List.map_eq_append_iff.1 h
    obtain ⟨a', t', h4, h5, h6⟩ := List.map_eq_append_iff.1 h2
    obtain ⟨-, ps, h7, h8⟩ := (takeWhile_iff ';' header _).1 rfl
    refine ⟨a', t', b', ps, ?_, ?_, ?_, h6, h8⟩
    · rw [← h4, ← h1]; exact h7
    · intro c hc
      rw [← lower_space]
      exact ha _ (h5 ▸ List.mem_map_of_mem hc)
    · intro c hc
      rw [← lower_space]
      exact hb _ (h3 ▸ List.mem_map_of_mem hc)
  · rintro ⟨a, t, b, ps, h, ha, hb, ht, hp⟩
    have hs : ∀ c, isSpace c = true → c ≠ ';' := by rintro c hc rfl; revert hc; decide
    have hn : ';' ∉ a ++ t ++ b := by
      simp only [List.mem_append, not_or]
      refine ⟨⟨fun h => hs _ (ha _ h) rfl, fun h => ?_⟩, fun h => hs _ (hb _ h) rfl⟩
      have h0 : toLower ';' ∈ mediaName f := ht ▸ List.mem_map_of_mem h
      revert h0; cases f <;> decide
    rw [(takeWhile_iff ';' header (a ++ t ++ b)).2 ⟨hn, ps, h, hp⟩]
    refine ⟨a.map toLower, b.map toLower, by simp [ht], ?_, ?_⟩
    · intro c hc
      obtain ⟨x, hx, rfl⟩ := List.mem_map.1 hc
      rw [lower_space]; exact ha x hx
    · intro c hc
      obtain ⟨x, hx, rfl⟩ := List.mem_map.1 hc
      rw [lower_space]; exact hb x hx

theorem contentFmt_iff (header : Str) (f : Fmt) :
    contentFmt header = some f ↔ MediaType f header := by
  rw [← media_iff]
  unfold contentFmt
  simp only
  generalize trimStr _ = t
  constructor
  · intro h
    split at h
    · cases h; assumption
    · split at h
      · cases h; assumption
      · cases h
  · rintro rfl
    cases f <;> decide

/-! ## C53 -/

theorem serveHTTP_iff (r : HttpReq) (m : Method) (f : Fmt) :
    serveHTTP r = .handler m f ↔
      r.method = "POST".toList ∧ r.path = routeOf m ∧ MediaType f r.contentType := by
  rw [← contentFmt_iff]
  have hp := parse_iff r.path (methodName m)
  constructor
  · intro h
    unfold serveHTTP at h
    split at h
    · cases h
    · rename_i h1
      simp only at h
      split at h
      · cases h
      · rename_i h2
        split at h
        · cases h
        · rename_i h3
          split at h
          · cases h
          · rename_i m' h4
            split at h
            · cases h
            · rename_i f' h5
              cases h
              rw [ofName_iff] at h4
              simp only [ne_eq, Classical.not_not] at h1 h2 h3
              exact ⟨h1, (hp.1 (by rw [← h2, ← h3, ← h4])).1, h5⟩
  · rintro ⟨h1, h2, h3⟩
    have h4 := hp.2 ⟨h2, slash_name m⟩
    unfold serveHTTP
    simp only [h1, h4, (ofName_iff _ _).2 rfl, h3, ne_eq, not_true_eq_false, if_false]

/-- C53: a request reaches a handler exactly when it is a POST request to one of the ten routes
with a JSON or protobuf content type, and the handler is the one named by the path. -/
theorem C53_routing (clean : Str → Str) (r : HttpReq) (m : Method) (f : Fmt) :
    router clean r = .handler m f ↔ MeantFor clean m f r := by
  unfold router MeantFor
  constructor
  · intro h
    split at h
    · cases h
    · rename_i h1
      split at h
      · obtain ⟨a, b, c⟩ := (serveHTTP_iff r m f).1 h
        exact ⟨a, b, Classical.not_not.1 h1, c⟩
      · cases h
  · rintro ⟨h1, h2, h3, h4⟩
    rw [if_neg (by simpa using h3), if_pos]
    · exact (serveHTTP_iff r m f).2 ⟨h1, h2, h4⟩
    · rw [h2]
      cases m <;> decide

/-- C53: every other request is answered by a redirect, 404 or bad_route without a single step that
touches caches, locks, channels or the unit. bad_route is the answer to those below the prefix of
the service. -/
theorem C53_otherwise_untouched (clean : Str → Str) (cd : Codec) (cv : FloatConv) (r : HttpReq)
    (h : ¬ ∃ m f, MeantFor clean m f r) :
    (clean r.path ≠ r.path ∧ serve clean cd cv r = .ret .redirect) ∨
    (clean r.path = r.path ∧ (∃ rest, r.path = "/twirp/comfo.api.Comfo/".toList ++ rest) ∧
      serve clean cd cv r = .ret .badRoute) ∨
    (clean r.path = r.path ∧ (¬ ∃ rest, r.path = "/twirp/comfo.api.Comfo/".toList ++ rest) ∧
      serve clean cd cv r = .ret .notFound) := by
  have hn : ∀ m f, router clean r ≠ .handler m f := fun m f e =>
    h ⟨m, f, (C53_routing clean r m f).1 e⟩
  have hpre : comfoPathPrefix.isPrefixOf r.path = true ↔
      ∃ rest, r.path = "/twirp/comfo.api.Comfo/".toList ++ rest := by
    rw [List.isPrefixOf_iff_prefix]
    constructor
    · rintro ⟨t, ht⟩; exact ⟨t, ht.symm⟩
    · rintro ⟨t, ht⟩; exact ⟨t, ht.symm⟩
  have hs : ∀ m f, serveHTTP r = .handler m f ∨ serveHTTP r = .badRoute ∨
      ∃ m f, serveHTTP r = .handler m f := by
    intro m f
    unfold serveHTTP
    split
    · simp
    · simp only
      split
      · simp
      · split
        · simp
        · split
          · simp
          · split <;> simp
  unfold serve
  by_cases h1 : clean r.path = r.path
  · by_cases h2 : comfoPathPrefix.isPrefixOf r.path = true
    · have e : router clean r = serveHTTP r := by simp [router, h1, h2]
      have hb : serveHTTP r = .badRoute := by
        rcases hs .getFans .json with h3 | h3 | ⟨m, f, h3⟩
        · exact absurd (e.trans h3) (hn _ _)
        · exact h3
        · exact absurd (e.trans h3) (hn _ _)
      exact .inr (.inl ⟨h1, hpre.1 h2, by rw [e, hb]⟩)
    · have e : router clean r = .notFound := by simp [router, h1, h2]
      exact .inr (.inr ⟨h1, mt hpre.2 h2, by rw [e]⟩)
  · have e : router clean r = .redirect := by simp [router, h1]
    exact .inl ⟨h1, by rw [e]⟩

/-- C53: a request meant for a method is answered `malformed` without a single step if its body
cannot be decoded, and otherwise runs the program of that method, and nothing else. -/
theorem C53_handler (clean : Str → Str) (cd : Codec) (cv : FloatConv) (r : HttpReq)
    (m : Method) (f : Fmt) (h : MeantFor clean m f r) :
    (cd.decode m f r.body = none ∧ serve clean cd cv r = .ret .malformed) ∨
    ∃ c, cd.decode m f r.body = some c ∧ c.method = some m ∧
      serve clean cd cv r = (c.prog cv).bind fun a => .ret a.http := by
  unfold serve
  rw [(C53_routing clean r m f).2 h]
  cases hd : cd.decode m f r.body with
  | none => exact .inl ⟨rfl, by simp [hd]⟩
  | some c => exact .inr ⟨c, rfl, cd.typed hd, by simp [hd, Prog.map]⟩

/-- A codec for the examples: only empty messages. -/
def emptyCodec : Codec where
  decode m _ _ :=
    match m with
    | .getBootInfo => some .getBoot
    | .getTemps => some .getTemps
    | .getBypass => some .getBypass
    | .getFans => some .getFans
    | .getFanProfiles => some .getProfiles
    | .getErrors => some .getErrors
    | .flushCache => some (.flush 0)
    | _ => none
  typed := by
    intro m f b c h
    cases m <;> simp at h <;> subst h <;> rfl

/-- A request with parameters, capitals and blanks in its content type reaches `GetFans`. -/
example : MeantFor id .getFans .json
    { method := "POST".toList, path := "/twirp/comfo.api.Comfo/GetFans".toList,
      contentType := " Application/JSON ; charset=utf-8".toList, body := [] } :=
  ⟨rfl, rfl, rfl, [' '], "Application/JSON".toList, [' '], "; charset=utf-8".toList, by decide,
    by decide, by decide, by decide, .inr ⟨_, rfl⟩⟩

/-- A JSON request without body. -/
def jsonReq (method path : String) : HttpReq :=
  ⟨method.toList, path.toList, "application/json".toList, []⟩

/-- The one and the other kinds of requests. -/
example : router id (jsonReq "POST" "/twirp/comfo.api.Comfo/GetFans") = .handler .getFans .json ∧
    router id (jsonReq "GET" "/twirp/comfo.api.Comfo/GetFans") = .badRoute ∧
    router id (jsonReq "POST" "/twirp/comfo.api.Comfo/GetFans/") = .badRoute ∧
    router id (jsonReq "POST" "/twirp/comfo.api.Comfo/x/comfo.api.Comfo/GetFans") = .badRoute ∧
    router id (jsonReq "POST" "/twirp/comfo.api.Comfo") = .notFound ∧
    router (fun _ => "/twirp/comfo.api.Comfo/GetFans".toList)
      (jsonReq "POST" "/twirp//comfo.api.Comfo/GetFans") = .redirect := by
  decide

/-! ## C54 -/

/-- C54: mode tcp dials the unit over TCP, once; mode serial opens the device at 9600 baud, once;
every other mode fails and leaves the world alone. -/
theorem C54_mode (d : Dialer κ ε ω) (mode unit : Str) (w : ω) :
    (mode = "tcp".toList ∧ (connectUnit d mode unit w).2 = (d (.tcp unit) w).2 ∧
      ∀ c, (d (.tcp unit) w).1 = (c, none) → (connectUnit d mode unit w).1 = (c, none)) ∨
    (mode = "serial".toList ∧ (connectUnit d mode unit w).2 = (d (.serial unit 9600) w).2 ∧
      ∀ c, (d (.serial unit 9600) w).1 = (c, none) → (connectUnit d mode unit w).1 = (c, none)) ∨
    (mode ≠ "tcp".toList ∧ mode ≠ "serial".toList ∧
      connectUnit d mode unit w = ((none, some (.unsupported mode)), w)) := by
  unfold connectUnit
  by_cases h1 : mode = "tcp".toList
  · left
    refine ⟨h1, ?_, ?_⟩
    · rw [if_pos h1]
      split <;> rename_i he <;> rw [he]
    · intro c hc
      rw [if_pos h1]
      split <;> rename_i he <;> rw [he] at hc <;> cases hc
      rfl
  · right
    rw [if_neg h1]
    by_cases h2 : mode = "serial".toList
    · left
      refine ⟨h2, ?_, ?_⟩
      · rw [if_pos h2]
        split <;> rename_i he <;> rw [he]
      · intro c hc
        rw [if_pos h2]
        split <;> rename_i he <;> rw [he] at hc <;> cases hc
        rfl
    · right
      exact ⟨h1, h2, by rw [if_neg h2]⟩

/-- C54: an attempt that fails is reported: there is no connection and the error of the attempt. -/
theorem C54_reported (d : Dialer κ ε ω) (unit : Str) (w : ω) (x : ε) :
    ((d (.tcp unit) w).1.2 = some x →
      (connectUnit d "tcp".toList unit w).1 = (none, some (.dial unit x))) ∧
    ((d (.serial unit 9600) w).1.2 = some x →
      (connectUnit d "serial".toList unit w).1 = (none, some (.openPort unit x))) := by
  unfold connectUnit
  constructor
  · intro h
    rw [if_pos rfl]
    split <;> rename_i he <;> rw [he] at h <;> cases h
    rfl
  · intro h
    rw [if_neg (by decide), if_pos rfl]
    split <;> rename_i he <;> rw [he] at h <;> cases h
    rfl

/-- C54: with an error there is no connection, whatever the attempt left behind; the error is the
one of the attempt or names the mode. -/
theorem C54_failure (d : Dialer κ ε ω) (mode unit : Str) (w : ω) (e : DialErr ε)
    (h : (connectUnit d mode unit w).1.2 = some e) :
    (connectUnit d mode unit w).1.1 = none ∧
      ((∃ x, (d (.tcp unit) w).1.2 = some x ∧ e = .dial unit x) ∨
        (∃ x, (d (.serial unit 9600) w).1.2 = some x ∧ e = .openPort unit x) ∨
        e = .unsupported mode) := by
  unfold connectUnit at h ⊢
  split
  · rename_i h1
    rw [if_pos h1] at h
    split at h <;> rename_i he
    · rw [he]
      cases h
      exact ⟨rfl, .inl ⟨_, rfl, rfl⟩⟩
    · cases h
  · rename_i h1
    rw [if_neg h1] at h
    split
    · rename_i h2
      rw [if_pos h2] at h
      split at h <;> rename_i he
      · rw [he]
        cases h
        exact ⟨rfl, .inr (.inl ⟨_, rfl, rfl⟩)⟩
      · cases h
    · rename_i h2
      rw [if_neg h2] at h
      cases h
      exact ⟨rfl, .inr (.inr rfl)⟩

/-- A world that counts attempts; opening a port fails but leaves a (typed nil) port behind. -/
def portDialer : Dialer Nat String Nat
  | .tcp _, n => ((some 7, none), n + 1)
  | .serial _ _, n => ((some 8, some "busy"), n + 1)

example : connectUnit portDialer "tcp".toList [] 0 = ((some 7, none), 1) ∧
    connectUnit portDialer "serial".toList [] 0 = ((none, some (.openPort [] "busy")), 1) ∧
    connectUnit portDialer "TCP".toList [] 0 = ((none, some (.unsupported "TCP".toList)), 0) := by
  decide

end Comfo.Props
