import Verif.Lemmas.DateTables.T00
import Verif.Lemmas.DateTables.T01
import Verif.Lemmas.DateTables.T02
import Verif.Lemmas.DateTables.T03
import Verif.Lemmas.DateTables.T04
import Verif.Lemmas.DateTables.T05
import Verif.Lemmas.DateTables.T06
import Verif.Lemmas.DateTables.T07
import Verif.Lemmas.DateTables.T08
import Verif.Lemmas.DateTables.T09
import Verif.Lemmas.DateTables.T10
import Verif.Lemmas.DateTables.T11
import Verif.Lemmas.DateTables.T12
import Verif.Lemmas.DateTables.T13
import Verif.Lemmas.DateTables.T14
import Verif.Lemmas.DateTables.T15

/-! The tables of the date formats pass the tests of `Lemmas/DateCheck.lean`. -/

namespace Brel
open Spec

theorem numeric_ok : ∀ f ∈ numericDateFormats, numericCheck f = true := by decide +kernel

theorem mem_fifths {α : Type} {l : List α} {x : α} (h : x ∈ l) : x ∈ l.take 5 ∨ x ∈ l.drop 5 := by
  rw [← List.mem_append, List.take_append_drop]; exact h

theorem named_ok : ∀ f ∈ namedDateFormats, f ∉ unreadFormats → namedCheck (unreadMonths f) f = true := by
  intro f hf
  have h00 : f ∈ namedDateFormats.drop 0 := hf
  rcases mem_fifths h00 with h | h01
  · exact named_ok_00 f h
  rw [List.drop_drop] at h01
  rcases mem_fifths h01 with h | h02
  · exact named_ok_01 f h
  rw [List.drop_drop] at h02
  rcases mem_fifths h02 with h | h03
  · exact named_ok_02 f h
  rw [List.drop_drop] at h03
  rcases mem_fifths h03 with h | h04
  · exact named_ok_03 f h
  rw [List.drop_drop] at h04
  rcases mem_fifths h04 with h | h05
  · exact named_ok_04 f h
  rw [List.drop_drop] at h05
  rcases mem_fifths h05 with h | h06
  · exact named_ok_05 f h
  rw [List.drop_drop] at h06
  rcases mem_fifths h06 with h | h07
  · exact named_ok_06 f h
  rw [List.drop_drop] at h07
  rcases mem_fifths h07 with h | h08
  · exact named_ok_07 f h
  rw [List.drop_drop] at h08
  rcases mem_fifths h08 with h | h09
  · exact named_ok_08 f h
  rw [List.drop_drop] at h09
  rcases mem_fifths h09 with h | h10
  · exact named_ok_09 f h
  rw [List.drop_drop] at h10
  rcases mem_fifths h10 with h | h11
  · exact named_ok_10 f h
  rw [List.drop_drop] at h11
  rcases mem_fifths h11 with h | h12
  · exact named_ok_11 f h
  rw [List.drop_drop] at h12
  rcases mem_fifths h12 with h | h13
  · exact named_ok_12 f h
  rw [List.drop_drop] at h13
  rcases mem_fifths h13 with h | h14
  · exact named_ok_13 f h
  rw [List.drop_drop] at h14
  rcases mem_fifths h14 with h | h15
  · exact named_ok_14 f h
  rw [List.drop_drop] at h15
  rcases mem_fifths h15 with h | h16
  · exact named_ok_15 f h
  rw [List.drop_drop] at h16
  exact absurd h16 (by rw [show namedDateFormats.drop (5 * 15 + 5) = [] from by rfl]; simp)

end Brel
