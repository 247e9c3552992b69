import Verif.Lemmas.DateSegs
import Verif.Props.Numeric

/-! What the date parser returns once the captures are known. -/

namespace Brel
open Spec

variable {dig : Char → Option Nat}

theorem parseDateMatch_go {r : Re} {m : Caps} {F : DatePart → List Char} : ∀ (order : List DatePart) (n : Nat) (d : Dict DatePart (Option (List Char))),
    (∀ i p, order[i]? = some p → m.group (n + i) = some (F p)) → n + order.length ≤ r.groups + 1 → order.Nodup → (∀ p ∈ order, p ∉ d.keys) →
    (order.zipIdx n).foldlM (fun (d : Dict DatePart (Option (List Char))) p => (matchGroup r m p.2).map (fun g => d.set p.1 g)) d =
      .ok (d ++ order.map (fun p => (p, some (F p)))) := by
  intro order
  induction order with
  | nil => intro n d _ _ _ _; simp [pure, Except.pure]
  | cons p order ih =>
    intro n d hg hn hnd hk
    have h0 := hg 0 p rfl
    rw [List.length_cons] at hn
    rw [List.zipIdx_cons, List.foldlM_cons]
    have h1 : matchGroup r m n = .ok (some (F p)) := by
      rw [matchGroup, if_pos (by omega)]
      exact congrArg _ h0
    rw [show (Except.map (fun g => d.set (p, n).1 g) (matchGroup r m (p, n).2)) = Except.ok (d.set p (some (F p))) by rw [h1]; rfl]
    simp only [bind, Except.bind]
    rw [Dict.set_of_not_mem d p _ (hk p (by simp))]
    rw [List.nodup_cons] at hnd
    rw [ih (n + 1) _ (fun i q hq => by rw [← hg (i + 1) q hq]; congr 1; omega) (by omega) hnd.2 ?_]
    · simp
    · intro q hq hq'
      simp only [Dict.keys, List.map_append, List.map_cons, List.map_nil, List.mem_append, List.mem_singleton] at hq'
      rcases hq' with hq' | rfl
      · exact hk q (List.mem_cons_of_mem _ hq) hq'
      · exact hnd.1 hq

theorem parseDateMatch_eq {r : Re} {m : Caps} {F : DatePart → List Char} {order : List DatePart}
    (hg : ∀ i p, order[i]? = some p → m.group (1 + i) = some (F p)) (hn : order.length ≤ r.groups) (hnd : order.Nodup) :
    parseDateMatch r m order = .ok (order.map (fun p => (p, some (F p)))) := by
  have := parseDateMatch_go (r := r) (m := m) (F := F) order 1 [] hg (by omega) hnd (by simp [Dict.keys])
  rw [List.nil_append] at this
  exact this

theorem mapM_parts {F : DatePart → List Char} (order : List DatePart) :
    (order.map (fun p => (p, some (F p)))).mapM normalizePart = .ok (order.map (fun p => (p, normalizeDigits (F p)))) := by
  induction order with
  | nil => rfl
  | cons p order ih =>
    rw [List.map_cons, List.mapM_cons, ih]
    rfl

theorem get?_map_parts {G : DatePart → List Char} (order : List DatePart) (q : DatePart) :
    Dict.get? (order.map (fun p => (p, G p)) : Dict DatePart (List Char)) q = if q ∈ order then some (G q) else none := by
  induction order with
  | nil => rfl
  | cons p order ih =>
    rw [List.map_cons, Dict.get?_cons, ih]
    by_cases h : p = q
    · subst h; simp
    · rw [if_neg h]
      have : q ≠ p := fun e => h e.symm
      simp [this]

/-- The text and errors of a date with the given parts. -/
def dateResult (hasDay hasYear : Bool) (y m d : List Char) : List Char × ErrNames :=
  ((if hasYear then y else ['-']) ++ ['-'] ++ m ++ (if hasDay then '-' :: d else []),
   if isoDateOk (if hasYear then y else "2020".toList) m (if hasDay && hasYear then d else "01".toList) then [] else ["INVALID_GREGORIAN_DATE"])

/-- The year text that is returned. -/
def yearText (y : List Char) : List Char :=
  if y.length = 2 then "20".toList ++ y else if y.length = 1 then "200".toList ++ y else y

theorem normalizeDateParts_eq {F : DatePart → List Char} {fmt : String} {order : List DatePart} {names : List (List (List Char))} {i d : Nat}
    (hj : isInfix "jpn".toList fmt.toList = false) (hind : fmt ≠ "ixt:date-ind-day-monthname-year-hi")
    (hmo : .month ∈ order) (hd : .day ∈ order → intOf dig (normalizeDigits (F .day)) = .ok d)
    (hn : monthNames.get? (monthCountry fmt) = some names) (hi : monthIndex names (pyLower (normalizeDigits (F .month))) = some i) :
    normalizeDateParts dig (order.map (fun p => (p, some (F p)))) fmt = .ok (
      (if .day ∈ order then [(DatePart.day, pad2 d)] else []) ++ [(DatePart.month, pad2 (i + 1))] ++
      (if .year ∈ order then [(DatePart.year, yearText (normalizeDigits (F .year)))] else [])) := by
  unfold normalizeDateParts
  rw [mapM_parts]
  simp only [bind, Except.bind, hj, Bool.false_eq_true, if_false, get?_map_parts, hmo, if_true, hn, hi]
  by_cases h1 : DatePart.day ∈ order
  · simp only [h1, if_true, hd h1, Except.map]
    by_cases h2 : DatePart.year ∈ order
    · simp only [h2, if_true, if_neg hind, yearText]
      split
      · rfl
      · split <;> rfl
    · simp only [h2, if_false]; rfl
  · simp only [h1, if_false]
    by_cases h2 : DatePart.year ∈ order
    · simp only [h2, if_true, if_neg hind, yearText]
      split
      · rfl
      · split <;> rfl
    · simp only [h2, if_false]; rfl

/-- What the parser returns, given the captures. -/
theorem parseDate_eval {text t : List Char} {fmt : String} {r : Re} {m : Caps} {order : List DatePart} {F : DatePart → List Char}
    {names : List (List (List Char))} {i d : Nat} {hasDay hasYear : Bool}
    (ht : pyStrip text = t) (hr : dateFormats.get? fmt = some r) (hm : r.fullMatch t = some m)
    (hday : isInfix "day".toList fmt.toList = hasDay) (hyear : isInfix "year".toList fmt.toList = hasYear)
    (ho : dateOrder fmt (hasDay && !hasYear) (hasDay && hasYear) = order)
    (hg : ∀ i p, order[i]? = some p → m.group (1 + i) = some (F p)) (hlen : order.length ≤ r.groups) (hnd : order.Nodup)
    (hj : isInfix "jpn".toList fmt.toList = false) (hind : fmt ≠ "ixt:date-ind-day-monthname-year-hi")
    (hmo : .month ∈ order) (hdo : .day ∈ order ↔ hasDay = true) (hyo : .year ∈ order ↔ hasYear = true) (hany : hasDay = true ∨ hasYear = true)
    (hd : .day ∈ order → intOf dig (normalizeDigits (F .day)) = .ok d)
    (hn : monthNames.get? (monthCountry fmt) = some names) (hi : monthIndex names (pyLower (normalizeDigits (F .month))) = some i) :
    parseDate dig text fmt = .ok (dateResult hasDay hasYear (yearText (normalizeDigits (F .year))) (pad2 (i + 1)) (pad2 d)) := by
  unfold parseDate
  simp only [ht, hr, hm, hday, hyear, ho, parseDateMatch_eq hg hlen hnd, bind, Except.bind,
    normalizeDateParts_eq (dig := dig) hj hind hmo hd hn hi]
  cases hasDay <;> cases hasYear
  · simp at hany
  · have h1 : DatePart.day ∉ order := fun h => by simpa using hdo.1 h
    have h2 : DatePart.year ∈ order := hyo.2 rfl
    simp only [h1, h2, if_true, if_false]
    simp [validateDate, datePart, Dict.get?, Dict.has, dateResult, bind, Except.bind]
  · have h1 : DatePart.day ∈ order := hdo.2 rfl
    have h2 : DatePart.year ∉ order := fun h => by simpa using hyo.1 h
    simp only [h1, h2, if_true, if_false]
    simp [validateDate, datePart, Dict.get?, Dict.has, dateResult, bind, Except.bind]
  · have h1 : DatePart.day ∈ order := hdo.2 rfl
    have h2 : DatePart.year ∈ order := hyo.2 rfl
    simp only [h1, h2, if_true]
    simp [validateDate, datePart, Dict.get?, Dict.has, dateResult, bind, Except.bind]

end Brel
