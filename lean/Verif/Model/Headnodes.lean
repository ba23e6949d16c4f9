import Verif.Model.Network

/-! `set_feeder_headnodes` of `ditto/modify/system_structure.py`. -/
namespace Ditto.Net
open Ditto

/-- `Feeder_metadata` -/
structure FeederMeta where
  name : Option String
  substation : String
  headnode : Option String
  nominal : Option ℚ
  operating : Option ℚ
deriving DecidableEq, Repr

/-- `s.replace("_src", "")` -/
def delSrc : List Char → List Char
  | '_' :: 's' :: 'r' :: 'c' :: t => delSrc t
  | c :: t => c :: delSrc t
  | [] => []

/-- `name.replace(".", "").lower().replace("_src", "")`: ditto/modify/system_structure.py:187 -/
def cleanName (s : String) : String := String.ofList (delSrc ((s.toList.filter (· ≠ '.')).map Char.toLower))

/-- `s.strip("x")` on lists of characters -/
def stripX (l : List Char) : List Char := (((l.dropWhile (· = 'x')).reverse).dropWhile (· = 'x')).reverse

/-- `h.strip("x")`: ditto/modify/system_structure.py:193 -/
def stripHead (h : String) : String := String.ofList (stripX h.toList)

/-- `s.split(">")` on lists of characters -/
def splitGt : List Char → List (List Char)
  | [] => [[]]
  | c :: t =>
    if c = '>' then [] :: splitGt t
    else
      match splitGt t with
      | [] => [[c]]
      | p :: ps => (c :: p) :: ps

/-- ditto/modify/system_structure.py:199-204. The assignment to a pair raises `ValueError` unless there are two parts. -/
def reverseHead (h : String) : Py String :=
  if '>' ∈ h.toList then
    match splitGt h.toList with
    | [a, b] => .ok (String.ofList (b ++ ['-', '>'] ++ a))
    | _ => .error .valueError
  else .ok h

/-- ditto/modify/system_structure.py:197-204 -/
def reverseHeads : List String → Py (List String)
  | [] => .ok []
  | h :: hs =>
    match reverseHead h with
    | .error e => .error e
    | .ok r =>
      match reverseHeads hs with
      | .error e => .error e
      | .ok rs => .ok (r :: rs)

/-- The body of the loop: ditto/modify/system_structure.py:186-212. `volt h` is `self.model[h].nominal_voltage`, `none` if there is no such
object. `headnodes[l.index(x)]` is the head node at the first place where `x` is in the list `l` made of the head nodes. -/
def setHeadnode (d : List Edge) (volt : String → Option (Option ℚ)) (f : FeederMeta) : Py FeederMeta :=
  match f.name with
  | none => .error .attributeError
  | some name =>
    if f.substation ∈ diNodes d then
      let hs := successors d f.substation
      if cleanName name ∈ hs then .ok { f with headnode := some (cleanName name) }
      else
        match hs.find? (fun h => stripHead h = cleanName name) with
        | some h => .ok { f with headnode := some h }
        | none =>
          match reverseHeads (hs.map stripHead) with
          | .error e => .error e
          | .ok rs =>
            match (hs.zip rs).find? (fun p => p.2 = cleanName name) with
            | none => .ok f
            | some p =>
              match volt p.1 with
              | none => .error .keyError
              | some v => .ok { f with headnode := some p.1, nominal := v, operating := v }
    else .error .networkXError

/-- `set_feeder_headnodes`: ditto/modify/system_structure.py:178-212. The voltages of the nodes do not change. -/
def setHeadnodes (d : List Edge) (volt : String → Option (Option ℚ)) : List FeederMeta → Py (List FeederMeta)
  | [] => .ok []
  | f :: fs =>
    match setHeadnode d volt f with
    | .error e => .error e
    | .ok f' =>
      match setHeadnodes d volt fs with
      | .error e => .error e
      | .ok fs' => .ok (f' :: fs')

end Ditto.Net
