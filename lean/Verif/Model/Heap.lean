import Verif.Model.Py
import Mathlib.Data.List.Basic
import Mathlib.Data.Rat.Defs

/-!
Objects, stores and the `Modifier`. Objects have an identity, so they live in a heap indexed by `Nat`.
-/
namespace Ditto.Heap
open Ditto

abbrev Ref := Nat

/-- value of a scalar trait that is not `None` -/
inductive Atom where
  | str (s : String)
  | num (q : Rat)
  | bool (b : Bool)
deriving DecidableEq, Repr

/-- Python types found in lists that do not hold DiTTo objects: `Unicode` trait objects (`phases`), lists (rows of
`impedance_matrix`, `capacitance_matrix`) and numbers (`reactances`). -/
inductive RawKind where
  | unicode | row | number
deriving DecidableEq, Repr

/-- element of a list trait -/
inductive Elem where
  | ref (r : Ref)
  | raw (k : RawKind) (content : String)
deriving DecidableEq, Repr

/-- value of a trait -/
inductive AttrVal where
  /-- traits of all classes but `List` -/
  | plain (v : Option Atom)
  /-- `List` traits, `None` is allowed (ditto/models/base.py:73, 125) -/
  | list (v : Option (List Elem))
deriving DecidableEq, Repr

/-- An object of a class of `ditto.models`: its class and its traits (`obj.traits()`) in order, with values. -/
structure Obj where
  cls : String
  attrs : List (String × AttrVal)
deriving DecidableEq, Repr

abbrev Heap := List Obj

/-- `getattr(obj, attr)`; `none` stands for the `AttributeError` -/
def Obj.get (o : Obj) (a : String) : Option AttrVal := o.attrs.lookup a

/-- update the value of an existing attribute -/
def setA (a : String) (v : AttrVal) : List (String × AttrVal) → List (String × AttrVal)
  | [] => []
  | (b, w) :: l => if b = a then (b, v) :: l else (b, w) :: setA a v l

/-- `setattr(obj, attr, v)` for a declared trait -/
def Obj.set (o : Obj) (a : String) (v : AttrVal) : Obj := { o with attrs := setA a v o.attrs }

/-- `setattr` of an object in the heap -/
def hset (h : Heap) (r : Ref) (a : String) (v : AttrVal) : Heap :=
  match h[r]? with
  | none => h
  | some o => h.set r (o.set a v)

/-! ### Store -/

/-- The name index `_model_names`: insertion ordered dict. -/
abbrev Names := List (Option Atom × Ref)

/-- `_model_store` and `_model_names` of a `Store`: ditto/store.py:53-57 -/
structure Store where
  models : List Ref
  names : Names
deriving DecidableEq, Repr

/-- `d[k] = v` of an insertion ordered dict -/
def dictSet (k : Option Atom) (v : Ref) : Names → Names
  | [] => [(k, v)]
  | (k', v') :: d => if k' = k then (k', v) :: d else (k', v') :: dictSet k v d

/-- `self.name` in `DiTToHasTraits.set_name`, ditto/models/base.py:26-35; `none`: the class has no trait `name`
(AttributeError, swallowed). `name` is a `Unicode` trait in all classes that have one. -/
def nameOf (h : Heap) (r : Ref) : Option (Option Atom) :=
  match h[r]? with
  | none => none
  | some o =>
    match o.get "name" with
    | some (.plain v) => some v
    | _ => none

/-- `DiTToHasTraits.set_name`: ditto/models/base.py:26-35 -/
def setName (h : Heap) (d : Names) (r : Ref) : Names :=
  match nameOf h r with
  | none => d
  | some k => dictSet k r d

/-- `Store.set_names`: ditto/store.py:116-120 -/
def setNames (h : Heap) (s : Store) : Store := { s with names := s.models.foldl (setName h) [] }

/-- `Store.__getitem__`: ditto/store.py:69-70 -/
def Store.getItem (s : Store) (k : Option Atom) : Py Ref :=
  match s.names.lookup k with
  | none => .error .keyError
  | some r => .ok r

/-- `Store.remove_element`: ditto/store.py:104-105, `list.remove` (objects compare by identity) -/
def removeElement (ms : List Ref) (r : Ref) : Py (List Ref) :=
  if r ∈ ms then .ok (ms.erase r) else .error .valueError

/-- `Store.iter_models(type)`: ditto/store.py:87-94. `isA` is `isinstance` of the class name. -/
def iterModels (h : Heap) (ms : List Ref) (isA : String → Bool) : List Ref :=
  ms.filter fun r => match h[r]? with
    | none => false
    | some o => isA o.cls

/-! ### Modifier -/

/-- list attributes skipped by the `Modifier`: ditto/modify/modify.py:35-38, 58-61 -/
def special (a : String) : Bool :=
  a = "reactances" || a = "phases" || a = "impedance_matrix" || a = "capacitance_matrix"

/-- `self.delete_element(model, element)`, ditto/modify/modify.py:41-43. `obj.traits()` of an element that is not a
DiTTo object raises `AttributeError`. `recur` is the recursive call. -/
def deleteElem (recur : List Ref → Ref → Py (List Ref)) (ms : List Ref) (e : Elem) : Py (List Ref) :=
  match e with
  | .raw _ _ => .error .attributeError
  | .ref c => recur ms c

/-- The body of the loop of `delete_element`, ditto/modify/modify.py:28-43: recursion into the elements of the list
attributes that are not empty and not special. -/
def deleteAttr (recur : List Ref → Ref → Py (List Ref)) (ms : List Ref) (av : String × AttrVal) : Py (List Ref) :=
  match av.2 with
  | .plain _ => .ok ms
  | .list none => .ok ms
  | .list (some es) =>
    if special av.1 then .ok ms
    else es.foldlM (deleteElem recur) ms

/-- `Modifier.delete_element`: ditto/modify/modify.py:26-47, on the list of models. The first number is the
recursion limit of python. -/
def deleteElement (h : Heap) : Nat → List Ref → Ref → Py (List Ref)
  | 0, _, _ => .error .recursionError
  | fuel + 1, ms, r =>
    match h[r]? with
    | none => .error .attributeError
    | some o =>
      match o.attrs.foldlM (deleteAttr (deleteElement h fuel)) ms with
      | .error e => .error e
      | .ok ms => removeElement ms r

/-- exception of `type(obj)(model)` followed by `obj.traits()` for an element that is not a DiTTo object,
ditto/modify/modify.py:51-52: `Unicode(model)` is a trait object and has no `traits`; `list(model)` iterates the
store with `model[0]`, which raises `KeyError`; `float(model)` raises `TypeError`. -/
def rawCopyErr : RawKind → PyErr
  | .unicode => .attributeError
  | .row => .keyError
  | .number => .typeError

/-- heap and `_model_store` of the store that is changed -/
abbrev St := Heap × List Ref

/-- the traits of a freshly created object; all of them are assigned by `copy`, except that the elements of
non-empty object lists are appended to the default `[]` -/
def blank (o : Obj) : Obj := { o with attrs := o.attrs.map fun av => (av.1, match av.2 with
  | .plain _ => .plain none
  | .list _ => .list (some [])) }

/-- copy of one list element: ditto/modify/modify.py:66-68, 109-110 -/
def copyElem (recur : St → Ref → Py (St × Ref)) (acc : St × List Elem) (e : Elem) : Py (St × List Elem) :=
  match e with
  | .raw k _ => .error (rawCopyErr k)
  | .ref c =>
    match recur acc.1 c with
    | .error e => .error e
    | .ok (st, c') => .ok (st, acc.2 ++ [.ref c'])

/-- copies of all elements of a list -/
def copyAll (recur : St → Ref → Py (St × Ref)) (st : St) (es : List Elem) : Py (St × List Elem) :=
  es.foldlM (copyElem recur) (st, [])

/-- The body of the loop of `copy`, ditto/modify/modify.py:52-72. The new attribute values are collected. -/
def copyAttr (recur : St → Ref → Py (St × Ref)) (acc : St × List (String × AttrVal)) (av : String × AttrVal) :
    Py (St × List (String × AttrVal)) :=
  match av.2 with
  | .plain v => .ok (acc.1, acc.2 ++ [(av.1, .plain v)])
  | .list none => .ok (acc.1, acc.2 ++ [(av.1, .list none)])
  | .list (some es) =>
    if special av.1 || es.isEmpty then .ok (acc.1, acc.2 ++ [(av.1, .list (some es))])
    else
      match copyAll recur acc.1 es with
      | .error e => .error e
      | .ok (st, es') => .ok (st, acc.2 ++ [(av.1, .list (some es'))])

/-- `Modifier.copy`: ditto/modify/modify.py:49-73. The attributes of the new object are assigned one after the other
in the code; here they are collected and assigned in the end (the loop only reads `obj` and its elements, which are
older than the new object). -/
def copy : Nat → St → Ref → Py (St × Ref)
  | 0, _, _ => .error .recursionError
  | fuel + 1, st, r =>
    match st.1[r]? with
    | none => .error .attributeError
    | some o =>
      match o.attrs.foldlM (copyAttr (copy fuel)) ((st.1 ++ [blank o], st.2 ++ [st.1.length]), []) with
      | .error e => .error e
      | .ok (st', attrs) => .ok ((st'.1.set st.1.length { o with attrs := attrs }, st'.2), st.1.length)

/-- `phase_order[x]`: ditto/modify/modify.py:89-94 -/
def phaseOrder : Option Atom → Py Nat
  | some (.str "A") => .ok 0
  | some (.str "B") => .ok 1
  | some (.str "C") => .ok 2
  | some (.str "N") => .ok 3
  | _ => .error .keyError

/-- `phase_order[x.phase]` of a list element -/
def phaseKey (h : Heap) : Elem → Py Nat
  | .raw _ _ => .error .attributeError
  | .ref r =>
    match h[r]? with
    | none => .error .attributeError
    | some o =>
      match o.get "phase" with
      | some (.plain v) => phaseOrder v
      | some (.list _) => .error .keyError
      | none => .error .attributeError

/-- `hasattr(x, "phase") and x.phase is not None`: ditto/modify/modify.py:118-128 -/
def hasPhase (h : Heap) : Elem → Bool
  | .raw _ _ => false
  | .ref r =>
    match h[r]? with
    | none => false
    | some o =>
      match o.get "phase" with
      | some (.plain v) => v.isSome
      | some (.list v) => v.isSome
      | none => false

/-- insertion into a list sorted by key, after the equal ones (stable sort) -/
def insertByKey (k : Nat) (e : Elem) : List (Nat × Elem) → List (Nat × Elem)
  | [] => [(k, e)]
  | (k', e') :: l => if k < k' then (k, e) :: (k', e') :: l else (k', e') :: insertByKey k e l

/-- stable sort by key -/
def sortKeyed (l : List (Nat × Elem)) : List (Nat × Elem) :=
  l.foldl (fun acc x => insertByKey x.1 x.2 acc) []

/-- `list.sort(key=...)`: the keys are computed first; an exception leaves the list as it is. -/
def sortByPhase (h : Heap) (l : List Elem) : Py (List Elem) :=
  match l.mapM (fun e => (phaseKey h e).map fun k => (k, e)) with
  | .error e => .error e
  | .ok ks => .ok ((sortKeyed ks).map (·.2))

/-- What the merge of two phase-tagged lists does next with the current elements: ditto/modify/modify.py:129-164.
`rec` is the recursive call of `set_attributes`. `l1` is the list attribute of `obj_1` and grows by the `append`;
the counters are represented by the index `i` in `l1` and the rest `l2` of the second list. The first argument
bounds the number of iterations; `2 * l2.length + l1.length` are always enough (`phaseLoop_terminates`). -/
def phaseLoop (recur : St → Elem → Elem → Py St) : Nat → St → List Elem → Nat → List Elem → Py (St × List Elem)
  | 0, st, l1, _, _ => .ok (st, l1)
  | n + 1, st, l1, i, l2 =>
    match l1[i]?, l2 with
    | some e1, e2 :: rest =>
      match phaseKey st.1 e1 with
      | .error e => .error e
      | .ok k1 =>
        match phaseKey st.1 e2 with
        | .error e => .error e
        | .ok k2 =>
          if k1 = k2 then
            match recur st e1 e2 with
            | .error e => .error e
            | .ok st' => phaseLoop recur n st' l1 (i + 1) rest
          else if k1 < k2 then phaseLoop recur n st l1 (i + 1) (e2 :: rest)
          else phaseLoop recur n st (l1 ++ [e2]) i rest
    | _, _ => .ok (st, l1)

/-- The positional merge: ditto/modify/modify.py:166-181 (the three branches on the lengths do the same as this):
elements with the same index are merged, the rest of the second list is appended. -/
def zipLoop (recur : St → Elem → Elem → Py St) : St → List Elem → List Elem → Py (St × List Elem)
  | st, [], l2 => .ok (st, l2)
  | st, l1, [] => .ok (st, l1)
  | st, e1 :: l1, e2 :: l2 =>
    match recur st e1 e2 with
    | .error e => .error e
    | .ok st' =>
      match zipLoop recur st' l1 l2 with
      | .error e => .error e
      | .ok (st'', l) => .ok (st'', e1 :: l)

/-- `set_attributes` called with two list elements. `obj_2.traits()` of an element that is not a DiTTo object raises
`AttributeError`; an `obj_1` that is not a DiTTo object has none of the attributes it is asked for. -/
def recurElem (recur : St → Ref → Ref → Py St) (st : St) (e1 e2 : Elem) : Py St :=
  match e2, e1 with
  | .raw _ _, _ => .error .attributeError
  | .ref c2, .ref c1 => recur st c1 c2
  | .ref _, .raw _ _ => .error .attributeError

/-- A list attribute that is `None` or empty is set to copies of the elements of the second list:
ditto/modify/modify.py:107-112 -/
def copyInto (cpy : St → Ref → Py (St × Ref)) (st : St) (r1 : Ref) (a : String) (l2 : List Elem) : Py St :=
  match copyAll cpy st l2 with
  | .error e => .error e
  | .ok (st', l) => .ok (hset st'.1 r1 a (.list (some l)), st'.2)

/-- The merge of two list attributes: ditto/modify/modify.py:88-181. `cpy` is `copy`, `recur` the recursive call.
Both lists are sorted in place before the merge by phase; the sorted second list stays in `obj_2`. -/
def mergeList (cpy : St → Ref → Py (St × Ref)) (recur : St → Ref → Ref → Py St) (st : St) (r1 r2 : Ref)
    (a : String) (list1 list2 : Option (List Elem)) : Py St :=
  match list1, list2 with
  | none, none => .error .typeError
  | some [], none => .error .typeError
  | some (_ :: _), none => .ok st
  | some (_ :: _), some [] => .ok st
  | some (e1 :: l1), some (e2 :: l2) =>
    if hasPhase st.1 e1 && hasPhase st.1 e2 then
      match sortByPhase st.1 (e1 :: l1) with
      | .error e => .error e
      | .ok s1 =>
        match sortByPhase st.1 (e2 :: l2) with
        | .error e => .error e
        | .ok s2 =>
          let h := hset (hset st.1 r1 a (.list (some s1))) r2 a (.list (some s2))
          match phaseLoop (recurElem recur) (2 * s2.length + s1.length) (h, st.2) s1 0 s2 with
          | .error e => .error e
          | .ok (st', l) => .ok (hset st'.1 r1 a (.list (some l)), st'.2)
    else
      match zipLoop (recurElem recur) st (e1 :: l1) (e2 :: l2) with
      | .error e => .error e
      | .ok (st', l) => .ok (hset st'.1 r1 a (.list (some l)), st'.2)
  | _, some l2 => copyInto cpy st r1 a l2

/-- The body of the loop of `set_attributes`: ditto/modify/modify.py:80-188, for attribute `a`. Assigning a scalar to a
`List` trait raises `TraitError` (the two objects have the same class, so this does not happen). -/
def setAttr (cpy : St → Ref → Py (St × Ref)) (recur : St → Ref → Ref → Py St) (overwrite : Bool) (r1 r2 : Ref)
    (st : St) (a : String) : Py St :=
  match (st.1[r2]?).bind (·.get a), (st.1[r1]?).bind (·.get a) with
  | none, _ => .error .attributeError
  | some (.list list2), some (.list list1) => mergeList cpy recur st r1 r2 a list1 list2
  | some (.list _), some (.plain _) => .error .typeError
  | some (.list _), none => .error .attributeError
  | some (.plain none), _ => .ok st
  | some (.plain (some _)), none => .error .attributeError
  | some (.plain (some v2)), some (.plain v1) =>
    if v1.isSome && !overwrite then .ok st else .ok (hset st.1 r1 a (.plain (some v2)), st.2)
  | some (.plain (some _)), some (.list l1) =>
    if l1.isSome && !overwrite then .ok st else .error .traitError

/-- `Modifier.set_attributes`: ditto/modify/modify.py:75-188. `r1`, `r2` are `obj_1`, `obj_2`. Simplification: while two
lists are merged element by element, changes of these very lists by the recursive calls are not seen (an object would
have to be contained in its own lists). -/
def setAttributes (overwrite : Bool) : Nat → St → Ref → Ref → Py St
  | 0, _, _, _ => .error .recursionError
  | fuel + 1, st, r1, r2 =>
    match st.1[r2]? with
    | none => .error .attributeError
    | some o2 =>
      (o2.attrs.map (·.1)).foldlM (setAttr (copy fuel) (setAttributes overwrite fuel) overwrite r1 r2) st

/-- the class of an object, for `type(a) != type(b)` -/
def clsOf (h : Heap) (r : Ref) : Option String := (h[r]?).map (·.cls)

/-- one iteration of the loop of `merge`: ditto/modify/modify.py:196-218 -/
def mergeStep (fuel : Nat) (overwrite : Bool) (names1 : Names) (st : St) (kr : Option Atom × Ref) : Py St :=
  match names1.lookup kr.1 with
  | none => .ok st
  | some r1 =>
    if clsOf st.1 r1 ≠ clsOf st.1 kr.2 then .error .genericException
    else setAttributes overwrite fuel st r1 kr.2

/-- `Modifier.merge`: ditto/modify/modify.py:190-221 -/
def merge (fuel : Nat) (overwrite : Bool) (h : Heap) (s1 s2 : Store) : Py (Heap × Store) :=
  match (setNames h s2).names.foldlM (mergeStep fuel overwrite (setNames h s1).names) (h, s1.models) with
  | .error e => .error e
  | .ok (h, ms) => .ok (h, setNames h ⟨ms, []⟩)

/-- one iteration of the loop of `add`: ditto/modify/modify.py:229-230 -/
def addStep (fuel : Nat) (st : St) (kr : Option Atom × Ref) : Py St :=
  match copy fuel st kr.2 with
  | .error e => .error e
  | .ok (st', _) => .ok st'

/-- `Modifier.add`: ditto/modify/modify.py:223-233 -/
def add (fuel : Nat) (h : Heap) (s1 s2 : Store) : Py (Heap × Store) :=
  match (setNames h s2).names.foldlM (addStep fuel) (h, s1.models) with
  | .error e => .error e
  | .ok (h, ms) => .ok (h, setNames h ⟨ms, []⟩)

/-- one iteration of the loop of `delete`: ditto/modify/modify.py:242-256 -/
def deleteStep (fuel : Nat) (h : Heap) (names1 : Names) (ms : List Ref) (kr : Option Atom × Ref) : Py (List Ref) :=
  match names1.lookup kr.1 with
  | none => .ok ms
  | some r1 =>
    if clsOf h r1 ≠ clsOf h kr.2 then .error .genericException
    else deleteElement h fuel ms r1

/-- `Modifier.delete`: ditto/modify/modify.py:235-258 -/
def delete (fuel : Nat) (h : Heap) (s1 s2 : Store) : Py Store :=
  match (setNames h s2).names.foldlM (deleteStep fuel h (setNames h s1).names) s1.models with
  | .error e => .error e
  | .ok ms => .ok (setNames h ⟨ms, []⟩)

end Ditto.Heap
