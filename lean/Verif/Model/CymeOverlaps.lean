import Verif.Model.CymeTable

/-! Sections of CYME files with several elements: `fix_section_overlaps` of ditto/readers/cyme/read.py. -/
namespace Ditto.Cyme
open Ditto Glm

/-- the classes that the method asks for -/
inductive PartKind
  | regulator
  | transformer
  | line
  | load
  | storage
  | capacitor
  | other
  deriving DecidableEq

/-- An element of a section. Elements that connect two nodes have `start` and `stop`, others have `place`. Simplification: other attributes are
left out. -/
structure SectionPart where
  kind : PartKind
  name : Text
  start : Option Text := none
  stop : Option Text := none
  place : Option Text := none
  deriving DecidableEq

/-- a node that the method adds, with longitudes and latitudes -/
structure AddedNode (P : Type) where
  name : Text
  positions : Option (List (P × P))
  deriving DecidableEq

/-- `isinstance(element, (Regulator, PowerTransformer, Line))`: ditto/readers/cyme/read.py:6482-6497 -/
def SectionPart.connects (e : SectionPart) : Bool := e.kind = .regulator ∨ e.kind = .transformer ∨ e.kind = .line

/-- the elements of a kind: ditto/readers/cyme/read.py:6482-6503 -/
def ofKind (k : PartKind) (es : List SectionPart) : List SectionPart := es.filter fun e => e.kind = k

/-- `connectors`: ditto/readers/cyme/read.py:6505 -/
def chainOf (es : List SectionPart) : List SectionPart := ofKind .regulator es ++ (ofKind .transformer es ++ ofKind .line es)

/-- The start and the end of the last element that connects nodes: ditto/readers/cyme/read.py:6478-6497. -/
def endsOf (es : List SectionPart) : Option Text × Option Text :=
  es.foldl (fun st e => if e.connects then (e.start, e.stop) else st) (none, none)

/-- the name of the next node: ditto/readers/cyme/read.py:6519-6523 -/
def nextName (orig : Text) (k : PartKind) (count : Nat) : Text :=
  if k = .regulator then orig ++ "_reg".toList else orig ++ "_sec_".toList ++ (Nat.repr count).toList

/-- `if from_element != original_from_element: element.from_element = from_element`: ditto/readers/cyme/read.py:6516-6517 -/
def startAt (orig cur : Text) (e : SectionPart) : SectionPart := if cur ≠ orig then { e with start := some cur } else e

/-- The elements in series: ditto/readers/cyme/read.py:6511-6536. The nodes that are added are in the second list. -/
def chainLoop {P : Type} (orig : Text) (pos : Option (List (P × P))) (total : Nat) : Text → Nat → List SectionPart → List SectionPart × List (AddedNode P)
  | _, _, [] => ([], [])
  | cur, count, e :: es =>
    let next := nextName orig e.kind count
    let r := chainLoop orig pos total next (count + 1) es
    if count + 1 ≠ total then ({ startAt orig cur e with stop := some next } :: r.1, ⟨next, pos⟩ :: r.2) else (startAt orig cur e :: r.1, r.2)

/-- what the other elements are connected to: ditto/readers/cyme/read.py:6506, 6538-6542. The list for photovoltaic systems is never filled. -/
def placeAt (stop : Text) (e : SectionPart) : SectionPart :=
  if e.kind = .load ∨ e.kind = .storage ∨ e.kind = .capacitor then { e with place := some stop } else e

/-- what becomes of a section: the elements that connect nodes, in their order, the others and the nodes -/
structure FixedSection (P : Type) where
  chain : List SectionPart
  others : List SectionPart
  nodes : List (AddedNode P)
  deriving DecidableEq

/-- One section: ditto/readers/cyme/read.py:6468-6542. `names` has the positions of the objects of the model by their names, `none` for objects
without this attribute. -/
def fixSection {P : Type} (names : List (Text × Option (Option (List (P × P))))) (es : List SectionPart) : Py (FixedSection P) :=
  match endsOf es with
  | (some a, some b) =>
    match getEntry a names with
    | none => .error .keyError
    | some none => if (chainOf es).length = 1 then .ok ⟨chainOf es, (es.filter fun e => !e.connects).map (placeAt b), []⟩ else .error .attributeError
    | some (some pos) =>
      let r := chainLoop a pos (chainOf es).length a 0 (chainOf es)
      .ok ⟨r.1, (es.filter fun e => !e.connects).map (placeAt b), r.2⟩
  | _ => .ok ⟨chainOf es, es.filter fun e => !e.connects, []⟩

/-- All sections with more than one element: ditto/readers/cyme/read.py:6462-6542. -/
def fixSections {P : Type} (names : List (Text × Option (Option (List (P × P))))) (sections : List (Text × List SectionPart)) :
    Py (List (Text × FixedSection P)) :=
  (sections.filter fun s => s.2.length > 1).mapM fun s => (fixSection names s.2).map fun f => (s.1, f)

end Ditto.Cyme
