import Verif.Props.Inventory

/-!
# C63: which station tables with a header are accepted
-/

namespace Gemlog

theorem columnOf_isSome (header : List (List Nat)) (name : List Nat) : (columnOf header name).isSome = true ↔ ∃ h ∈ header, lower h = name := by
  unfold columnOf
  rw [List.findIdx?_isSome, List.any_eq_true]
  simp

/-- **C63, tables with a header, exactly.** A table whose header consists of documented names, in any order and capitalisation, is accepted if and only if there are columns for the serial
number, the network, the station and the location: of the columns documented as optional, only the elevation is. What is read is in `C63_header_partial`. -/
theorem C63_exact (header : List (List Nat)) (rows : List (List (List Nat)))
    (hnames : ∀ h ∈ header, lower h ∈ [bytes "sn", bytes "network", bytes "station", bytes "location", bytes "elevation"]) :
    (∃ table, readStation (header :: rows) = some table) ↔
      ∀ name ∈ [bytes "sn", bytes "network", bytes "station", bytes "location"], ∃ h ∈ header, lower h = name := by
  have hall : header.all isTextCell = true := List.all_eq_true.mpr fun h hh => textCell_of_lower (hnames h hh)
  have hall' : (header.all fun h => decide (lower h ∈ headerNames)) = true :=
    List.all_eq_true.mpr fun h hh => by simpa [headerNames] using hnames h hh
  rw [readStation, if_pos hall, if_pos hall']
  simp only [List.forall_mem_cons, List.not_mem_nil, false_imp_iff, implies_true, and_true, ← columnOf_isSome]
  cases columnOf header (bytes "sn") <;> cases columnOf header (bytes "network") <;> cases columnOf header (bytes "station") <;>
    cases columnOf header (bytes "location") <;> simp

/-- A header in another order, with and without the location. -/
example : (readStation [[bytes "Location", bytes "STATION", bytes "network", bytes "Sn"], [bytes "A0", bytes "LADR1", bytes "NM", bytes "077"]]).isSome = true ∧
    (readStation [[bytes "STATION", bytes "network", bytes "Sn"], [bytes "LADR1", bytes "NM", bytes "077"]]).isSome = false := by decide +kernel

end Gemlog
