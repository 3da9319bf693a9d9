import Verif.Model.Path
import Verif.Spec.Path
import Verif.Props.GoClient
/-!
# Canonical paths: C53

The router redirects a path that is not canonical. With gorilla/mux's `cleanPath` in the place of the
parameter of the other theorems on routing, the routes of the service are canonical, and a redirect
leads to a path that is not redirected again.
-/
namespace Comfo.Props
open Spec Comfo.Twirp

theorem cleanParts_plain {es : List Str} : ∀ {acc : List Str}, (∀ e ∈ acc, Plain e) →
    (∀ e ∈ es, '/' ∉ e) → ∀ e ∈ cleanParts acc es, Plain e := by
  induction es with
  | nil => intro acc h _ e he; exact h e (List.mem_reverse.1 he)
  | cons x xs ih =>
    intro acc h hf
    have hf' : ∀ e ∈ xs, '/' ∉ e := fun e he => hf e (by simp [he])
    unfold cleanParts
    split
    · exact ih h hf'
    · rename_i h1
      split
      · exact ih (fun e he => h e (List.mem_of_mem_tail he)) hf'
      · rename_i h2
        refine ih (fun e he => ?_) hf'
        rcases List.mem_cons.1 he with rfl | he
        · exact ⟨fun h => h1 (.inl h), fun h => h1 (.inr h), h2, hf _ (by simp)⟩
        · exact h e he

/-- Without two dots, what remains are the elements that name something. -/
theorem cleanParts_filter {es : List Str} (h : ∀ e ∈ es, e ≠ "..".toList) :
    ∀ acc, cleanParts acc es = acc.reverse ++ es.filter fun e => e ≠ [] ∧ e ≠ ".".toList := by
  induction es with
  | nil => intro acc; simp [cleanParts]
  | cons x xs ih =>
    intro acc
    have ih := ih fun e he => h e (by simp [he])
    unfold cleanParts
    by_cases h1 : x = [] ∨ x = ".".toList
    · rw [if_pos h1, ih, List.filter_cons_of_neg (by rcases h1 with h1 | h1 <;> simp [h1])]
    · rw [if_neg h1, if_neg (h x (by simp)), ih, List.filter_cons_of_pos (by simpa [not_or] using h1)]
      simp

theorem cleanParts_same {es : List Str} (h : ∀ e ∈ es, Plain e) : cleanParts [] es = es := by
  rw [cleanParts_filter fun e he => (h e he).2.2.1, List.reverse_nil, List.nil_append,
    List.filter_eq_self]
  intro e he
  simpa using ⟨(h e he).1, (h e he).2.1⟩

theorem cleanParts_end (es : List Str) : ∀ acc, cleanParts acc (es ++ [[]]) = cleanParts acc es := by
  induction es with
  | nil => intro acc; simp [cleanParts]
  | cons x xs ih => intro acc; simp only [List.cons_append, cleanParts, ih]

theorem join_text {es : List Str} (h : es ≠ []) : '/' :: joinWith '/' es = pathText es := by
  induction es with
  | nil => exact absurd rfl h
  | cons e es ih =>
    cases es with
    | nil => simp [joinWith, pathText]
    | cons x xs =>
      have := ih (by simp)
      simp only [joinWith, pathText] at this ⊢
      rw [this]

theorem split_text {es : List Str} (h : ∀ e ∈ es, '/' ∉ e) (hne : es ≠ []) :
    splitOn '/' (pathText es) = [] :: es ∧ splitOn '/' (pathText es ++ ['/']) = [] :: (es ++ [[]]) := by
  have key : ∀ (e : Str) (es : List Str), (∀ x ∈ e :: es, '/' ∉ x) →
      splitOn '/' (e ++ pathText es) = e :: es ∧
        splitOn '/' (e ++ pathText es ++ ['/']) = e :: (es ++ [[]]) := by
    intro e es
    induction es generalizing e with
    | nil =>
      intro h
      have he := h e (by simp)
      constructor
      · simp [pathText, split_single he]
      · rw [pathText, List.append_nil, split_append he]; rfl
    | cons x xs ih =>
      intro h
      have he := h e (by simp)
      obtain ⟨h1, h2⟩ := ih x fun y hy => h y (List.mem_cons_of_mem _ hy)
      constructor
      · rw [pathText, split_append he, h1]
      · rw [pathText, List.append_assoc, List.cons_append, split_append he, h2]; rfl
  cases es with
  | nil => exact absurd rfl hne
  | cons e es =>
    obtain ⟨h1, h2⟩ := key e es h
    constructor
    · show splitOn '/' ('/' :: (e ++ pathText es)) = _
      rw [splitOn, if_pos rfl, h1]
    · show splitOn '/' ('/' :: (e ++ pathText es ++ ['/'])) = _
      rw [splitOn, if_pos rfl, h2]; rfl

theorem pathText_head {es : List Str} (h : es ≠ []) : (pathText es).head? = some '/' := by
  cases es with
  | nil => exact absurd rfl h
  | cons e es => rfl

theorem pathText_ne {es : List Str} (h : es ≠ []) : pathText es ≠ [] := by
  intro h0
  have := pathText_head h
  rw [h0] at this
  cases this

theorem pathText_last {es : List Str} (h : ∀ e ∈ es, '/' ∉ e) (hl : ∃ e, es.getLast? = some e ∧ e ≠ []) :
    (pathText es).getLast? ≠ some '/' := by
  induction es with
  | nil => obtain ⟨e, h, -⟩ := hl; cases h
  | cons e es ih =>
    have h4 := h e (by simp)
    by_cases hes : es = []
    · subst hes
      obtain ⟨e', h1, h2⟩ := hl
      obtain rfl : e = e' := Option.some.inj h1
      show ('/' :: (e ++ [])).getLast? ≠ _
      rw [List.append_nil]
      intro hl
      rw [List.getLast?_cons_of_ne_nil h2] at hl
      exact h4 (List.mem_of_getLast? hl)
    · have := ih (fun x hx => h x (by simp [hx])) (by rwa [List.getLast?_cons_of_ne_nil hes] at hl)
      show ('/' :: (e ++ pathText es)).getLast? ≠ _
      have hp := pathText_ne hes
      rw [List.getLast?_cons_of_ne_nil (by simp [hp]), List.getLast?_append]
      cases hl : (pathText es).getLast? with
      | none => exact absurd (List.getLast?_eq_none_iff.1 hl) hp
      | some c => rw [hl] at this; exact this

theorem last_plain {es : List Str} (h : ∀ e ∈ es, Plain e) (hne : es ≠ []) :
    ∃ e, es.getLast? = some e ∧ e ≠ [] := by
  cases hl : es.getLast? with
  | none => exact absurd (List.getLast?_eq_none_iff.1 hl) hne
  | some e => exact ⟨e, rfl, (h e (List.mem_of_getLast? hl)).1⟩

theorem pathText_ne_root {es : List Str} (h : ∀ e ∈ es, Plain e) (hne : es ≠ []) : pathText es ≠ ['/'] := by
  intro h0
  exact pathText_last (fun e he => (h e he).2.2.2) (last_plain h hne) (by rw [h0]; rfl)

/-- **C53** A redirect leads to a canonical path: it begins with a slash and has no empty elements,
no `.` and no `..`. -/
theorem C53_canonical (p : Str) : Canonical (cleanPath p) := by
  unfold cleanPath
  split
  · exact .inl rfl
  · generalize (if p.head? = some '/' then p else '/' :: p) = q
    have hp : ∀ e ∈ cleanParts [] (splitOn '/' q), Plain e :=
      cleanParts_plain (by simp) fun e he => slash_split he
    by_cases hes : cleanParts [] (splitOn '/' q) = []
    · have : pathClean q = ['/'] := by rw [pathClean, hes]; rfl
      simp [Canonical, this]
    · have : pathClean q = pathText (cleanParts [] (splitOn '/' q)) := join_text hes
      simp only [this]
      split
      · exact .inr ⟨_, hes, hp, .inr rfl⟩
      · exact .inr ⟨_, hes, hp, .inl rfl⟩

theorem cleanPath_text {es : List Str} (h : ∀ e ∈ es, '/' ∉ e) (hne : es ≠ []) :
    pathClean (pathText es) = '/' :: joinWith '/' (cleanParts [] es) ∧
    pathClean (pathText es ++ ['/']) = '/' :: joinWith '/' (cleanParts [] es) := by
  obtain ⟨h1, h2⟩ := split_text h hne
  unfold pathClean
  rw [h1, h2]
  constructor
  · rw [cleanParts, if_pos (.inl rfl)]
  · rw [cleanParts, if_pos (.inl rfl), cleanParts_end]

/-- **C53** Canonical paths are not redirected. -/
theorem C53_stays {p : Str} (h : Canonical p) : cleanPath p = p := by
  rcases h with rfl | ⟨es, hne, hp, rfl | rfl⟩
  · decide
  · have hf := fun e he => (hp e he).2.2.2
    unfold cleanPath
    rw [if_neg (pathText_ne hne)]
    simp only [pathText_head hne, if_true]
    rw [if_neg fun h => pathText_last hf (last_plain hp hne) h.1, (cleanPath_text hf hne).1,
      cleanParts_same hp, join_text hne]
  · have hf := fun e he => (hp e he).2.2.2
    have hh : (pathText es ++ ['/']).head? = some '/' := by
      rw [List.head?_append, pathText_head hne]; rfl
    unfold cleanPath
    rw [if_neg (by simp)]
    simp only [hh, if_true, (cleanPath_text hf hne).2, cleanParts_same hp, join_text hne]
    rw [if_pos ⟨by simp, pathText_ne_root hp hne⟩]

/-- A path is redirected exactly if it is not canonical. -/
theorem clean_iff (p : Str) : cleanPath p = p ↔ Canonical p :=
  ⟨fun h => h ▸ C53_canonical p, C53_stays⟩

/-- **C53** A redirect without two dots leads to the path with the same names. -/
theorem C53_redirect {es : List Str} (h : ∀ e ∈ es, '/' ∉ e ∧ e ≠ "..".toList)
    (hn : ∃ e ∈ es, Plain e) (hl : es.getLast? ≠ some []) :
    cleanPath (pathText es) = pathText (es.filter fun e => e ≠ [] ∧ e ≠ ".".toList) := by
  obtain ⟨e, he, hpe⟩ := hn
  have hne : es ≠ [] := by rintro rfl; cases he
  have hf := fun e he => (h e he).1
  have hlast : ∃ e, es.getLast? = some e ∧ e ≠ [] := by
    cases hq : es.getLast? with
    | none => exact absurd (List.getLast?_eq_none_iff.1 hq) hne
    | some x => exact ⟨x, rfl, fun h0 => hl (by rw [hq, h0])⟩
  unfold cleanPath
  rw [if_neg (pathText_ne hne)]
  simp only [pathText_head hne, if_true]
  rw [if_neg fun h => pathText_last hf hlast h.1, (cleanPath_text hf hne).1,
    cleanParts_filter fun e he => (h e he).2, List.reverse_nil, List.nil_append, join_text]
  intro h0
  have : e ∈ es.filter fun e => e ≠ [] ∧ e ≠ ".".toList :=
    List.mem_filter.2 ⟨he, by simpa using ⟨hpe.1, hpe.2.1⟩⟩
  rw [h0] at this
  cases this

/-- **C53** The same for a path that ends with a slash: the slash is kept. -/
theorem C53_redirect_slash {es : List Str} (h : ∀ e ∈ es, '/' ∉ e ∧ e ≠ "..".toList)
    (hn : ∃ e ∈ es, Plain e) :
    cleanPath (pathText es ++ ['/']) =
      pathText (es.filter fun e => e ≠ [] ∧ e ≠ ".".toList) ++ ['/'] := by
  obtain ⟨e, he, hpe⟩ := hn
  have hne : es ≠ [] := by rintro rfl; cases he
  have hf := fun e he => (h e he).1
  have hmem : e ∈ es.filter fun e => e ≠ [] ∧ e ≠ ".".toList :=
    List.mem_filter.2 ⟨he, by simpa using ⟨hpe.1, hpe.2.1⟩⟩
  have hne' : (es.filter fun e => e ≠ [] ∧ e ≠ ".".toList) ≠ [] := fun h0 => by
    rw [h0] at hmem; cases hmem
  have hp : ∀ e ∈ es.filter (fun e => e ≠ [] ∧ e ≠ ".".toList), Plain e := fun x hx => by
    obtain ⟨hx, hq⟩ := List.mem_filter.1 hx
    have hq : x ≠ [] ∧ x ≠ ".".toList := by simpa using hq
    exact ⟨hq.1, hq.2, (h x hx).2, (h x hx).1⟩
  have hh : (pathText es ++ ['/']).head? = some '/' := by
    rw [List.head?_append, pathText_head hne]; rfl
  unfold cleanPath
  rw [if_neg (by simp)]
  simp only [hh, if_true, (cleanPath_text hf hne).2]
  rw [cleanParts_filter fun e he => (h e he).2, List.reverse_nil, List.nil_append, join_text hne',
    if_pos ⟨by simp, pathText_ne_root hp hne'⟩]

/-- The routes of the service are canonical: what other theorems ask of the router. -/
theorem routes_canonical (m : Method) : cleanPath (routeOf m) = routeOf m := by
  cases m <;> decide

/-- **C53** The router with gorilla/mux's `cleanPath`: a request reaches a handler exactly if it is meant
for it. -/
theorem C53_mux (r : HttpReq) (m : Method) (f : Fmt) :
    router cleanPath r = .handler m f ↔
      r.method = "POST".toList ∧ r.path = routeOf m ∧ MediaType f r.contentType := by
  rw [C53_routing]
  constructor
  · rintro ⟨h1, h2, -, h4⟩
    exact ⟨h1, h2, h4⟩
  · rintro ⟨h1, h2, h4⟩
    exact ⟨h1, h2, by rw [h2, routes_canonical], h4⟩

/-- **C53** The router with gorilla/mux's `cleanPath`: every other request. -/
theorem C53_mux_otherwise (cd : Codec) (cv : FloatConv) (r : HttpReq)
    (h : ¬ (r.method = "POST".toList ∧ ∃ m f, r.path = routeOf m ∧ MediaType f r.contentType)) :
    (¬ Canonical r.path ∧ serve cleanPath cd cv r = .ret .redirect) ∨
    (Canonical r.path ∧ (∃ rest, r.path = "/twirp/comfo.api.Comfo/".toList ++ rest) ∧
      serve cleanPath cd cv r = .ret .badRoute) ∨
    (Canonical r.path ∧ (¬ ∃ rest, r.path = "/twirp/comfo.api.Comfo/".toList ++ rest) ∧
      serve cleanPath cd cv r = .ret .notFound) := by
  have := C53_otherwise_untouched cleanPath cd cv r fun ⟨m, f, h1, h2, _, h4⟩ => h ⟨h1, m, f, h2, h4⟩
  simpa only [ne_eq, clean_iff] using this

/-- Four requests. -/
example : cleanPath "/a//b/../c/./d/".toList = "/a/c/d/".toList ∧
    cleanPath "a/../..".toList = "/".toList ∧
    cleanPath "//twirp/comfo.api.Comfo/GetFans".toList = routeOf .getFans ∧
    cleanPath "/twirp/comfo.api.Comfo/GetFans/".toList = routeOf .getFans ++ ['/'] := by decide

/-- A path that is redirected to a route: `//twirp/./comfo.api.Comfo/GetFans`. -/
example : cleanPath (pathText [[], "twirp".toList, ".".toList, "comfo.api.Comfo".toList, "GetFans".toList]) =
    routeOf .getFans := by
  rw [C53_redirect (by decide) ⟨"twirp".toList, by simp, by decide⟩ (by decide)]
  decide

/-- And one that keeps its slash: `/twirp//`. -/
example : cleanPath (pathText ["twirp".toList, []] ++ ['/']) = "/twirp/".toList := by
  rw [C53_redirect_slash (by decide) ⟨"twirp".toList, by simp, by decide⟩]
  decide

/-- A slash at the end of a route is canonical, and not a route. -/
example : Canonical (routeOf .getFans ++ ['/']) ∧
    router cleanPath ⟨"POST".toList, routeOf .getFans ++ ['/'], "application/json".toList, []⟩ =
      .badRoute := by
  refine ⟨(clean_iff _).1 (by decide), by decide⟩

end Comfo.Props
