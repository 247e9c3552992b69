import Verif.Model.Names
import Verif.Spec.Filing
import Verif.Spec.Names
import Verif.Lemmas.History

namespace Brel


theorem takeWhile_append_stop {α : Type} (p : α → Bool) (l : List α) (x : α) (r : List α) (h : ∀ a ∈ l, p a = true) (hx : p x = false) :
    (l ++ x :: r).takeWhile p = l ∧ (l ++ x :: r).dropWhile p = x :: r := by
  induction l with
  | nil => simp [hx]
  | cons a l ih =>
    have := ih (fun b hb => h b (List.mem_cons_of_mem _ hb))
    simp [h a List.mem_cons_self, this]

theorem takeWhile_all {α : Type} (p : α → Bool) (l : List α) : ∀ a ∈ l.takeWhile p, p a = true := by
  induction l with
  | nil => simp
  | cons a l ih =>
    simp only [List.takeWhile_cons]
    split
    · rename_i h
      intro b hb
      rcases List.mem_cons.1 hb with rfl | hb
      · exact h
      · exact ih b hb
    · simp

theorem dropWhile_head {α : Type} (p : α → Bool) (l : List α) (x : α) (r : List α) (h : l.dropWhile p = x :: r) : p x = false := by
  induction l with
  | nil => simp at h
  | cons a l ih =>
    simp only [List.dropWhile_cons] at h
    split at h
    · exact ih h
    · rename_i hn
      cases h
      simpa using hn

theorem ne_empty_iff (s : String) : s ≠ "" ↔ s.toList ≠ [] := by
  constructor
  · intro h h'
    exact h (String.toList_inj.1 (by simpa using h'))
  · rintro h rfl
    exact h rfl

theorem matchColon_iff (s p l : String) : matchColon s = some (p, l) ↔ IsPrefixed s p l := by
  unfold IsPrefixed
  rw [ne_empty_iff p, ne_empty_iff l]
  constructor
  · intro h
    unfold matchColon at h
    simp only at h
    split at h
    · rename_i l' hd
      split at h
      · rename_i hc
        obtain ⟨h1, h2, h3⟩ := hc
        simp only [Option.some.injEq, Prod.mk.injEq] at h
        obtain ⟨rfl, rfl⟩ := h
        refine ⟨?_, by simpa using h1, by simpa using h2, ?_, by simpa using h3⟩
        · apply String.toList_inj.1
          have := List.takeWhile_append_dropWhile (p := fun c : Char => decide (c ≠ ':')) (l := s.toList)
          rw [hd] at this
          generalize List.takeWhile (fun c : Char => decide (c ≠ ':')) s.toList = tw at this ⊢
          rw [← this]
          simp
        · intro hm
          have hm' : ':' ∈ s.toList.takeWhile (fun c : Char => decide (c ≠ ':')) := by simpa using hm
          have := takeWhile_all _ _ _ hm'
          simp at this
      · cases h
    · cases h
  · rintro ⟨rfl, h1, h2, h3, h4⟩
    unfold matchColon
    have e : (p ++ ":" ++ l).toList = p.toList ++ ':' :: l.toList := by simp [String.toList_append]
    obtain ⟨ht, hd⟩ := takeWhile_append_stop (fun c : Char => decide (c ≠ ':')) p.toList ':' l.toList
      (by intro a ha; simp; rintro rfl; exact h3 ha) (by simp)
    simp only [e, ht, hd]
    rw [if_pos ⟨h1, h2, h4⟩]
    simp

theorem matchColon_none_iff (s : String) : matchColon s = none ↔ ¬ ∃ p l, IsPrefixed s p l := by
  constructor
  · rintro h ⟨p, l, hp⟩
    rw [(matchColon_iff s p l).2 hp] at h
    cases h
  · intro h
    cases hm : matchColon s with
    | none => rfl
    | some x => exact absurd ⟨x.1, x.2, (matchColon_iff s x.1 x.2).1 hm⟩ h

theorem matchClark_iff (s u l : String) : matchClark s = some (u, l) ↔ s = "{" ++ u ++ "}" ++ l ∧ IsClark u l := by
  unfold IsClark
  rw [ne_empty_iff u, ne_empty_iff l]
  constructor
  · intro h
    unfold matchClark at h
    split at h
    · rename_i rest hs
      split at h
      · rename_i l' hl
        dsimp only at h
        split at h
        · rename_i hc
          simp only [Option.some.injEq, Prod.mk.injEq] at h
          obtain ⟨rfl, rfl⟩ := h
          have hall := takeWhile_all (fun c => decide (c ≠ '}')) rest
          refine ⟨?_, by simpa using hc.1, by simpa using hc.2.1, ?_, by simpa using hc.2.2⟩
          · apply String.toList_inj.1
            simp only [String.toList_append, String.toList_ofList]
            rw [hs]
            have e := List.takeWhile_append_dropWhile (p := fun c => decide (c ≠ '}')) (l := rest)
            rw [hl] at e
            generalize rest.takeWhile (fun c => decide (c ≠ '}')) = t at e
            rw [← e]
            simp
          · rw [String.toList_ofList]
            intro hm
            simpa using hall _ hm
        · cases h
      · cases h
    · cases h
  · rintro ⟨rfl, hu, hl, hnu, hnl⟩
    unfold matchClark
    have : ("{" ++ u ++ "}" ++ l).toList = '{' :: (u.toList ++ '}' :: l.toList) := by simp [String.toList_append]
    rw [this]
    obtain ⟨h1, h2⟩ := takeWhile_append_stop (fun c => decide (c ≠ '}')) u.toList '}' l.toList
      (fun a ha => by
        have : a ≠ '}' := fun e => hnu (e ▸ ha)
        simpa using this) (by simp)
    simp only [h1, h2]
    rw [if_pos ⟨hu, hl, hnl⟩]
    simp

theorem invertNs_get? (ns : NsMap) (u : String) :
    (invertNs ns).get? u = (latest (fun e : Option String × String => e.2) ns u).map (·.1) := by
  unfold invertNs
  rw [foldl_set_get? (fun e : Option String × String => e.2) (fun e => e.1)]
  cases latest (fun e : Option String × String => e.2) ns u <;> rfl

theorem invertNs_bound (ns : NsMap) (u : String) (p0 : Option String) (h : (p0, u) ∈ ns) :
    ∃ p, (p, u) ∈ ns ∧ (invertNs ns).get? u = some p := by
  cases hl : latest (fun e : Option String × String => e.2) ns u with
  | none => exact absurd rfl ((latest_none _ _ _).1 hl (p0, u) h)
  | some e =>
    obtain ⟨h1, h2⟩ := latest_some _ _ _ _ hl
    obtain ⟨p, u'⟩ := e
    subst h2
    exact ⟨p, h1, by rw [invertNs_get?, hl]; rfl⟩

theorem qnameFromStr_clark (u l : String) (ns : NsMap) (h : IsClark u l) :
    qnameFromStr ("{" ++ u ++ "}" ++ l) ns = .ok ⟨u, if u = xmlNs then "xml" else strOpt ((invertNs ns).get? u).join, l⟩ := by
  have hm := (matchClark_iff _ u l).2 ⟨rfl, h⟩
  unfold qnameFromStr qnameFromClark
  rw [hm]
  simp only [Option.isSome_some, if_true]
  rw [Dict.get?_set]
  by_cases hx : u = xmlNs
  · rw [if_pos hx, if_pos hx.symm]; rfl
  · rw [if_neg hx, if_neg (Ne.symm hx)]

end Brel
