import Verif.Lemmas.Csv
import Verif.Lemmas.GlmCaps

/-! C102: the objects that are read from a CSV file. -/
namespace Ditto.Csv
open Ditto Glm Csv.Spec

section
variable {K : Type} {cs : Classes K}

/-- Every object that is read belongs to one row and has one place there, and each row has the objects, nested objects and values that its cells say. -/
theorem C102_cells_partial {headers : List Text} {rows : List (List (Option (Cell K)))} {objs : List (Obj K)} (hn : headers.Nodup)
    (h : readCsv cs headers rows = .ok objs) :
    ∃ places : List (List ((Text × Path) × Nat)), List.Forall₂ (fun row place => RowIs cs (headers.zip row) objs place) rows places ∧
      places.flatten.map (·.2) = List.range objs.length := by
  obtain ⟨-, -, places, h1, h2⟩ := readRows_ok hn h
  refine ⟨places, h1, ?_⟩
  rw [h2, List.range_eq_range']
  rfl

/-- A header says one thing only. -/
theorem C102_headers {header cls cls' attr attr' : Text} {path path' : Path} (h : HeaderIs header cls path attr) (h' : HeaderIs header cls' path' attr') :
    cls = cls' ∧ path = path' ∧ attr = attr' := header_unique h h'

/-- A file with well-formed headers and values that fit is read. -/
theorem C102_reads (hint : ∀ n : Nat, cs.int n.repr.toList = some (n : Int)) {headers : List Text} {rows : List (List (Option (Cell K)))} (hn : headers.Nodup)
    (hg : ∀ row ∈ rows, ∀ e ∈ headers.zip row, Readable cs e.1 e.2) : ∃ objs, readCsv cs headers rows = .ok objs := readRows_succeeds hint hn hg

/-- A file with a name that pandas reads as a number, such as `650`, cannot be read. -/
theorem C102_name_violated {headers : List Text} {rows : List (List (Option (Cell K)))} {row : List (Option (Cell K))} (hr : row ∈ rows) {h cls : Text} {path : Path}
    {x : K} (hc : (h, some (.value x)) ∈ headers.zip row) (hh : HeaderIs h cls path "name".toList) : ∀ objs, readCsv cs headers rows ≠ .ok objs := by
  intro objs h0
  obtain ⟨-, w, hw⟩ := roots_rows h0 row hr h _ cls path _ hc hh
  unfold StoredAs at hw
  rw [if_pos rfl] at hw
  obtain ⟨t, ht, -⟩ := hw
  cases ht

/-- A file with objects of a class that is not imported cannot be read. -/
theorem C102_class_violated {headers : List Text} {rows : List (List (Option (Cell K)))} {row : List (Option (Cell K))} (hr : row ∈ rows) {h cls attr : Text}
    {path : Path} {v : Cell K} (hc : (h, some v) ∈ headers.zip row) (hh : HeaderIs h cls path attr) (hk : cs.known cls = false) :
    ∀ objs, readCsv cs headers rows ≠ .ok objs := by
  intro objs h0
  have := (roots_rows h0 row hr h _ cls path _ hc hh).1
  rw [hk] at this
  cases this

/-- These classes of ditto are not imported. -/
theorem C102_imports_violated : ∀ c ∈ ["PowerSource", "Photovoltaic", "Storage", "PhaseStorage", "Reactor", "PhaseReactor", "Generator", "Meter",
    "Feeder_metadata"].map String.toList, c ∉ importedClasses := by
  decide +kernel

/-- Lists of plain values, such as the phases of a node, cannot be given: the last part of a header is never taken as a place in a list. -/
theorem C102_plain_lists_violated {headers : List Text} {rows : List (List (Option (Cell K)))} {objs : List (Obj K)} (hn : headers.Nodup)
    (hh : ∀ h ∈ headers, ∃ cls attr, HeaderIs h cls [] attr) (h : readCsv cs headers rows = .ok objs) :
    ∀ o ∈ objs, ∀ name j id, ¬HasChild o name j id := by
  intro o ho name j id hc
  obtain ⟨places, h1, h2⟩ := C102_cells_partial hn h
  obtain ⟨i, hi⟩ := List.mem_iff_getElem?.mp ho
  have hlt := (List.getElem?_eq_some_iff.mp hi).1
  have hm : i ∈ places.flatten.map (·.2) := by rw [h2, List.mem_range]; exact hlt
  obtain ⟨⟨⟨c, q⟩, i'⟩, hp, rfl⟩ := List.mem_map.mp hm
  obtain ⟨place, hpl, hmem⟩ := List.mem_flatten.mp hp
  obtain ⟨row, -, hr⟩ := Glm.found_left h1 hpl
  have h3 := hr.lists c q i' o name j id hmem hi hc
  obtain ⟨hd, c', cls, path, attr, hcell, hhead, hneed⟩ := hr.needed _ _ h3
  obtain ⟨cls', attr', hh'⟩ := hh hd (List.of_mem_zip hcell).1
  obtain ⟨-, rfl, -⟩ := header_unique hhead hh'
  rcases hneed.2 with h4 | ⟨q0, nm, jj, ii, rest, -, h4, -⟩
  · exact absurd h4 (by simp)
  · exact absurd h4 (by simp)

/-- A header without an attribute is refused, even if the cell is empty. -/
theorem C102_short_header {header : Text} (h : '.' ∉ header) (c : Option (Cell K)) (st : State K) : readCell cs header c st = .error .genericException := by
  unfold readCell
  rw [Net.splitCh_not_mem h]

end

/-! ### Examples -/
namespace CsvExample

def t (s : String) : Text := s.toList

def number : Text → Option Int
  | ['0'] => some 0
  | ['1'] => some 1
  | ['0', '1'] => some 1
  | _ => none

def classes : Classes Nat where
  known c := importedClasses.contains c
  element k n :=
    if k = t "PowerTransformer" ∧ n = t "windings" then .ok (t "Winding")
    else if k = t "Winding" ∧ n = t "phase_windings" then .ok (t "PhaseWinding")
    else .error .keyError
  takes k a v := !(k = t "Winding" && a = t "rated_power" && (match v with | .text _ => true | _ => false))
  int := number

def headers : List Text := [t "PowerTransformer.name", t "PowerTransformer.windings[1].rated_power", t "PowerTransformer.windings[0].rated_power",
  t "PowerTransformer.windings[1].phase_windings[0].phase", t "Node.name"]

def rows : List (List (Option (Cell Nat))) :=
  [[some (.text (t "Tr1")), some (.value 50), some (.value 60), some (.text (t "A")), none], [none, none, none, none, some (.text (t "N1"))]]

def result : List (Obj Nat) :=
  [⟨t "PowerTransformer", [(t "name", .text (t "tr1"))], [(t "windings", [1, 2])]⟩, ⟨t "Winding", [(t "rated_power", .value 60)], []⟩,
    ⟨t "Winding", [(t "rated_power", .value 50)], [(t "phase_windings", [3])]⟩, ⟨t "PhaseWinding", [(t "phase", .text (t "A"))], []⟩,
    ⟨t "Node", [(t "name", .text (t "n1"))], []⟩]

/-- a transformer with two windings and a node -/
example : headers.Nodup ∧ readCsv classes headers rows = .ok result := by
  refine ⟨by decide +kernel, ?_⟩
  decide +kernel

/-- errors: a text for a power, a layer without a number, an unknown list, an odd number, and a class that is not imported -/
example : readCsv classes [t "PowerTransformer.windings[0].rated_power"] [[some (.text (t "50"))]] = .error .traitError ∧
    readCsv classes [t "PowerTransformer.windings.rated_power"] [[some (.value 50)]] = .error .indexError ∧
    readCsv classes [t "PowerTransformer.windings[x].rated_power"] [[some (.value 50)]] = .error .valueError ∧
    readCsv classes [t "PowerTransformer.positions[0].lat"] [[some (.value 50)]] = .error .keyError ∧
    readCsv classes [t "PowerTransformer.windings[01].rated_power"] [[some (.value 50)]] = .error .keyError ∧
    readCsv classes [t "PowerSource.name"] [[some (.text (t "s"))]] = .error .keyError ∧
    readCsv classes [t "Node.name"] [[some (.value 650)]] = .error .attributeError ∧
    readCsv classes [t "Node"] [[none]] = .error .genericException := by
  refine ⟨?_, ?_, ?_, ?_, ?_, ?_, ?_, ?_⟩ <;> decide +kernel

/-- the phases of a node: an attribute with an odd name, and no list -/
example : readCsv classes [t "Node.phases[0]"] [[some (.text (t "A"))]] = .ok [⟨t "Node", [(t "phases[0]", .text (t "A"))], []⟩] ∧
    HeaderIs (t "Node.phases[0]") (t "Node") [] (t "phases[0]") := by
  refine ⟨by decide +kernel, ?_⟩
  exact ⟨by decide +kernel, by decide +kernel, by decide +kernel, by simp⟩

def numbers : Classes Nat := { classes with int := fun s => if s.all Char.isDigit && !s.isEmpty then some (Nat.ofDigitChars 10 s 0 : Nat) else none }

/-- the hypotheses of `C102_reads` -/
example : (∀ n : Nat, numbers.int n.repr.toList = some (n : Int)) ∧ Readable numbers (t "PowerTransformer.windings[1].rated_power") (some (.value 50)) := by
  refine ⟨fun n => ?_, t "PowerTransformer", [(t "windings", 1)], t "rated_power", ⟨by decide +kernel, by decide +kernel, by decide +kernel, ?_⟩, ?_⟩
  · show (if _ then _ else _) = _
    rw [if_pos]
    · rw [Nat.toList_repr, Nat.ofDigitChars_toDigits (by decide) (by decide)]
    · rw [Bool.and_eq_true]
      refine ⟨List.all_eq_true.mpr fun c hc => ?_, ?_⟩
      · rw [Nat.toList_repr] at hc
        exact Nat.isDigit_of_mem_toDigits (by decide) (by decide) hc
      · have := repr_ne_nil n
        cases h : n.repr.toList with
        | nil => exact absurd h this
        | cons a b => rfl
  · intro e he
    rw [List.mem_singleton] at he
    subst he
    decide +kernel
  · intro c hc
    injection hc with hc
    subst hc
    refine ⟨t "Winding", .value 50, ?_, by decide +kernel, ?_, by decide +kernel⟩
    · exact ClassAt.nested (path := []) (k := t "PowerTransformer") .top (by decide +kernel) (by decide +kernel)
    · unfold StoredAs
      rw [if_neg (by decide +kernel)]

end CsvExample
end Ditto.Csv
