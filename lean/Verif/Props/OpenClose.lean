import Verif.Model.OpenClose

/-! C60: `open_close_switches`. -/
namespace Ditto.Net
open Ditto

/-! ### the file -/

/-- an entry of the file: a name and properties with values -/
structure OcEntry where
  name : List Char
  props : List (List Char × List Char)

def OcEntry.tail : List (List Char × List Char) → List Char
  | [] => ['\n']
  | (k, v) :: t => ' ' :: k ++ '=' :: v ++ OcEntry.tail t

/-- `New Line.name k1=v1 k2=v2 ...` and the end of the line -/
def OcEntry.text (e : OcEntry) : List Char := ['N', 'e', 'w', ' ', 'L', 'i', 'n', 'e', '.'] ++ e.name ++ OcEntry.tail e.props

/-- no white space, and none of the characters `.` and `=` in names, `=` in keys and values -/
structure OcEntry.Plain (e : OcEntry) : Prop where
  name : ∀ c ∈ e.name, c.isWhitespace = false ∧ c ≠ '.' ∧ c ≠ '='
  key : ∀ p ∈ e.props, ∀ c ∈ p.1, c.isWhitespace = false ∧ c ≠ '='
  value : ∀ p ∈ e.props, ∀ c ∈ p.2, c.isWhitespace = false ∧ c ≠ '='

/-- the value of the last property called `k` -/
def OcEntry.get (e : OcEntry) (k : String) : Option (List Char) :=
  (e.props.reverse.find? fun p => p.1.map Char.toLower = k.toList).map (·.2)

/-- the entry says that the line is a switch -/
def OcEntry.IsSwitch (e : OcEntry) : Prop :=
  e.get "switch" = some ['y'] ∨ e.get "switch" = some ['y', 'e', 's'] ∨ e.get "switch" = some ['t', 'r', 'u', 'e']

instance (e : OcEntry) : Decidable e.IsSwitch := by unfold OcEntry.IsSwitch; infer_instance

/-- the convention: the switch is open -/
def OcEntry.IsOpen (e : OcEntry) : Prop := e.get "r1" = some ['1', 'e', '1', '1']

/-- the last entry of the file for the switch `nm` -/
def lastSwitch (es : List OcEntry) (nm : List Char) : Option OcEntry :=
  (es.filter fun e => decide (e.name.map Char.toLower = nm) && decide e.IsSwitch).getLast?

/-! ### lemmas -/

theorem splitCh_ne_nil (c : Char) (l : List Char) : splitCh c l ≠ [] := by
  induction l with
  | nil => simp [splitCh]
  | cons a t ih =>
    rw [splitCh]
    split
    · simp
    · split <;> simp

theorem splitCh_not_mem {c : Char} {a : List Char} (h : c ∉ a) : splitCh c a = [a] := by
  induction a with
  | nil => rfl
  | cons x t ih =>
    rw [List.mem_cons, not_or] at h
    rw [splitCh, if_neg (Ne.symm h.1), ih h.2]

theorem splitCh_append {c : Char} {a : List Char} (h : c ∉ a) (b : List Char) : splitCh c (a ++ c :: b) = a :: splitCh c b := by
  induction a with
  | nil => rw [List.nil_append, splitCh, if_pos rfl]
  | cons x t ih =>
    rw [List.mem_cons, not_or] at h
    rw [List.cons_append, splitCh, if_neg (Ne.symm h.1), ih h.2]

theorem dropWhile_white {l : List Char} (h : ∀ c ∈ l, c.isWhitespace = false) : l.dropWhile Char.isWhitespace = l := by
  cases l with
  | nil => rfl
  | cons a t => rw [List.dropWhile_cons_of_neg (by rw [h a List.mem_cons_self]; exact Bool.noConfusion)]

theorem pyStrip_plain {l : List Char} (h : ∀ c ∈ l, c.isWhitespace = false) : pyStrip l = l := by
  unfold pyStrip
  rw [dropWhile_white h, dropWhile_white (fun c hc => h c (List.mem_reverse.1 hc)), List.reverse_reverse]

theorem pyStrip_newline {l : List Char} (h : ∀ c ∈ l, c.isWhitespace = false) : pyStrip (l ++ ['\n']) = l := by
  unfold pyStrip
  have hn : ('\n' : Char).isWhitespace = true := by decide
  cases l with
  | nil => rw [List.nil_append, List.dropWhile_cons_of_pos hn]; rfl
  | cons a t =>
    rw [List.cons_append, List.dropWhile_cons_of_neg (by rw [h a List.mem_cons_self]; exact Bool.noConfusion), ← List.cons_append,
      List.reverse_append, List.reverse_singleton, List.singleton_append, List.dropWhile_cons_of_pos hn,
      dropWhile_white (fun c hc => h c (List.mem_reverse.1 hc)), List.reverse_reverse]

/-- the parts of a line between blanks -/
def parts (x : List Char) : List (List Char × List Char) → List (List Char)
  | [] => [x ++ ['\n']]
  | (k, v) :: t => x :: parts (k ++ '=' :: v) t

theorem blank_not_mem {l : List Char} (h : ∀ c ∈ l, c.isWhitespace = false) : ' ' ∉ l := fun hm => by
  have := h _ hm
  revert this
  decide

theorem splitCh_tail (ps : List (List Char × List Char)) : ∀ (x : List Char), ' ' ∉ x →
    (∀ p ∈ ps, ∀ c ∈ p.1, c.isWhitespace = false ∧ c ≠ '=') → (∀ p ∈ ps, ∀ c ∈ p.2, c.isWhitespace = false ∧ c ≠ '=') →
    splitCh ' ' (x ++ OcEntry.tail ps) = parts x ps := by
  induction ps with
  | nil =>
    intro x hx _ _
    rw [OcEntry.tail, parts, splitCh_not_mem]
    simp [hx]
  | cons p ps ih =>
    obtain ⟨k, v⟩ := p
    intro x hx hk hv
    have h1 : ' ' ∉ k := blank_not_mem fun c hc => (hk _ List.mem_cons_self c hc).1
    have h2 : ' ' ∉ v := blank_not_mem fun c hc => (hv _ List.mem_cons_self c hc).1
    rw [parts, OcEntry.tail]
    have : x ++ (' ' :: k ++ '=' :: v ++ OcEntry.tail ps) = x ++ ' ' :: ((k ++ '=' :: v) ++ OcEntry.tail ps) := by simp
    rw [this, splitCh_append hx, ih _ (by simp [h1, h2]) (fun p hp => hk p (List.mem_cons_of_mem _ hp))
      (fun p hp => hv p (List.mem_cons_of_mem _ hp))]

theorem eq_not_mem {l : List Char} (h : ∀ c ∈ l, c.isWhitespace = false ∧ c ≠ '=') : '=' ∉ l := fun hm => (h _ hm).2 rfl

theorem dataPairs_parts (ps : List (List Char × List Char)) : ∀ (k v : List Char),
    (∀ c ∈ k, c.isWhitespace = false ∧ c ≠ '=') → (∀ c ∈ v, c.isWhitespace = false ∧ c ≠ '=') →
    (∀ p ∈ ps, ∀ c ∈ p.1, c.isWhitespace = false ∧ c ≠ '=') → (∀ p ∈ ps, ∀ c ∈ p.2, c.isWhitespace = false ∧ c ≠ '=') →
    dataPairs (parts (k ++ '=' :: v) ps) = .ok (((k, v) :: ps).map fun p => (p.1.map Char.toLower, p.2)) := by
  induction ps with
  | nil =>
    intro k v hk hv _ _
    have : splitCh '=' (k ++ '=' :: v ++ ['\n']) = [k, v ++ ['\n']] := by
      rw [List.append_assoc, List.cons_append, splitCh_append (eq_not_mem hk), splitCh_not_mem]
      simp [eq_not_mem hv]
    simp only [parts, dataPairs, this, item, List.getElem?_cons_zero, List.getElem?_cons_succ, List.map_cons, List.map_nil]
    rw [pyStrip_plain fun c hc => (hk c hc).1, pyStrip_newline fun c hc => (hv c hc).1]
  | cons p ps ih =>
    obtain ⟨k', v'⟩ := p
    intro k v hk hv hks hvs
    have : splitCh '=' (k ++ '=' :: v) = [k, v] := by
      rw [splitCh_append (eq_not_mem hk), splitCh_not_mem (eq_not_mem hv)]
    rw [parts]
    simp only [dataPairs, this, item, List.getElem?_cons_zero, List.getElem?_cons_succ]
    rw [ih k' v' (hks _ List.mem_cons_self) (hvs _ List.mem_cons_self) (fun p hp => hks p (List.mem_cons_of_mem _ hp))
      (fun p hp => hvs p (List.mem_cons_of_mem _ hp))]
    simp only [List.map_cons]
    rw [pyStrip_plain fun c hc => (hk c hc).1, pyStrip_plain fun c hc => (hv c hc).1]

/-- a plain entry is read as it was written -/
theorem parseSwitch_text {e : OcEntry} (he : e.Plain) : parseSwitch e.text =
    .ok (e.name.map Char.toLower, e.props.map fun p => (p.1.map Char.toLower, p.2)) := by
  obtain ⟨name, props⟩ := e
  obtain ⟨hn, hk, hv⟩ := he
  have hw : ∀ c ∈ name, c.isWhitespace = false := fun c hc => (hn c hc).1
  have hd : '.' ∉ name := fun h => (hn _ h).2.1 rfl
  have hL : '.' ∉ ['L', 'i', 'n', 'e'] := by decide
  have hraw : splitCh ' ' (OcEntry.text ⟨name, props⟩) = ['N', 'e', 'w'] :: parts (['L', 'i', 'n', 'e', '.'] ++ name) props := by
    have : OcEntry.text ⟨name, props⟩ = ['N', 'e', 'w'] ++ ' ' :: ((['L', 'i', 'n', 'e', '.'] ++ name) ++ OcEntry.tail props) := by
      rfl
    have h1 : ' ' ∉ ['L', 'i', 'n', 'e', '.'] ++ name := by
      rw [List.mem_append, not_or]
      exact ⟨by decide, blank_not_mem hw⟩
    rw [this, splitCh_append (by decide), splitCh_tail props _ h1 hk hv]
  have hLd : ['L', 'i', 'n', 'e', '.'] = ['L', 'i', 'n', 'e'] ++ ['.'] := by decide
  unfold parseSwitch
  simp only [hraw]
  cases props with
  | nil =>
    have h1 : splitCh '.' (['L', 'i', 'n', 'e', '.'] ++ name ++ ['\n']) = [['L', 'i', 'n', 'e'], name ++ ['\n']] := by
      have : ['L', 'i', 'n', 'e', '.'] ++ name ++ ['\n'] = ['L', 'i', 'n', 'e'] ++ '.' :: (name ++ ['\n']) := by
        rw [hLd, List.append_assoc, List.append_assoc, List.singleton_append]
      rw [this, splitCh_append hL, splitCh_not_mem]
      simp [hd]
    simp only [parts, item, List.getElem?_cons_zero, List.getElem?_cons_succ, h1, List.drop_succ_cons, List.drop_zero, dataPairs,
      List.map_nil, pyStrip_newline hw]
  | cons p ps =>
    obtain ⟨k, v⟩ := p
    have h1 : splitCh '.' (['L', 'i', 'n', 'e', '.'] ++ name) = [['L', 'i', 'n', 'e'], name] := by
      have : ['L', 'i', 'n', 'e', '.'] ++ name = ['L', 'i', 'n', 'e'] ++ '.' :: name := by
        rw [hLd, List.append_assoc, List.singleton_append]
      rw [this, splitCh_append hL, splitCh_not_mem hd]
    simp only [parts, item, List.getElem?_cons_zero, List.getElem?_cons_succ, h1, List.drop_succ_cons, List.drop_zero,
      pyStrip_plain hw]
    rw [dataPairs_parts ps k v (hk _ List.mem_cons_self) (hv _ List.mem_cons_self) (fun p hp => hk p (List.mem_cons_of_mem _ hp))
      (fun p hp => hv p (List.mem_cons_of_mem _ hp))]

theorem dictGet_props (e : OcEntry) (k : String) :
    dictGet (e.props.map fun p => (p.1.map Char.toLower, p.2)) k = e.get k := by
  unfold dictGet OcEntry.get
  rw [← List.map_reverse, List.find?_map, Option.map_map]
  rfl

theorem isSwitchLine_props (e : OcEntry) : isSwitchLine (e.props.map fun p => (p.1.map Char.toLower, p.2)) = decide e.IsSwitch := by
  rw [Bool.eq_iff_iff, decide_eq_true_iff, isSwitchLine, dictGet_props]
  unfold OcEntry.IsSwitch
  generalize e.get "switch" = g
  cases g with
  | none => simp
  | some v =>
    have h1 : "y".toList = ['y'] := by decide
    have h2 : "yes".toList = ['y', 'e', 's'] := by decide
    have h3 : "true".toList = ['t', 'r', 'u', 'e'] := by decide
    simp only [h1, h2, h3, Option.some.injEq, Bool.or_eq_true, decide_eq_true_eq, or_assoc]

theorem toLower_idem (c : Char) : c.toLower.toLower = c.toLower := by
  unfold Char.toLower
  split
  · rename_i h
    split
    · rename_i h'
      exfalso
      simp only [ge_iff_le, UInt32.le_iff_toNat_le] at h h'
      have : (c.val + ('a'.val - 'A'.val)).toNat = c.val.toNat + 32 := by
        rw [UInt32.toNat_add]
        have h1 : ('a'.val - 'A'.val).toNat = 32 := by decide
        have h2 : ('Z'.val).toNat = 90 := by decide
        rw [h1]
        omega
      have h1 : ('A'.val).toNat = 65 := by decide
      have h2 : ('Z'.val).toNat = 90 := by decide
      omega
    · rfl
  · rename_i h
    rfl

/-! ### the property -/

/-- For a file of entries `New Line.name key=value ...` the method succeeds. The wires of a line that the file declares to be a switch are
all open if its `r1` is `1e11`, otherwise all closed; the last entry counts. All other objects stay. Missing: other forms of lines, see the
violations. -/
theorem C60_switches_partial (es : List OcEntry) (hp : ∀ e ∈ es, e.Plain) (os : List OcObj) :
    openClose (es.map (·.text)) os = (os.map fun o =>
      match lastSwitch es o.name with
      | none => o
      | some e => { o with wires := o.wires.map fun _ => some (decide (e.get "r1" = some ['1', 'e', '1', '1'])) }, none) := by
  induction es generalizing os with
  | nil => simp [openClose, lastSwitch]
  | cons e es ih =>
    have hp' : ∀ e ∈ es, e.Plain := fun x hx => hp x (List.mem_cons_of_mem _ hx)
    have h4 : "1e11".toList = ['1', 'e', '1', '1'] := by decide
    have hstep : openClose ((e :: es).map (·.text)) os =
        openClose (es.map (·.text)) (if e.IsSwitch then setOpen (e.name.map Char.toLower) (decide (e.get "r1" = some ['1', 'e', '1', '1'])) os
          else os) := by
      rw [List.map_cons, openClose, parseSwitch_text (hp e List.mem_cons_self)]
      simp only [isSwitchLine_props, dictGet_props, decide_eq_true_eq, h4]
      split
      · split <;> simp_all
      · rfl
    rw [hstep, ih hp']
    simp only [Prod.mk.injEq, and_true]
    have hlast : ∀ nm, lastSwitch (e :: es) nm = (lastSwitch es nm).or
        (if e.name.map Char.toLower = nm ∧ e.IsSwitch then some e else none) := by
      intro nm
      unfold lastSwitch
      rw [List.filter_cons]
      by_cases h : e.name.map Char.toLower = nm ∧ e.IsSwitch
      · rw [if_pos (by simpa using h), if_pos h, List.getLast?_cons]
        cases (List.filter (fun e => decide (List.map Char.toLower e.name = nm) && decide e.IsSwitch) es).getLast? <;> simp
      · rw [if_neg (by simpa using h), if_neg h, Option.or_none]
    split
    · rename_i hs
      unfold setOpen
      rw [List.map_map]
      apply List.map_congr_left
      intro o _
      simp only [Function.comp, hlast, hs, and_true]
      by_cases hn : o.name = e.name.map Char.toLower
      · rw [if_pos hn]
        rw [if_pos hn.symm]
        cases lastSwitch es o.name with
        | none => rfl
        | some e' => simp
      · rw [if_neg hn, if_neg (Ne.symm hn), Option.or_none]
    · rename_i hs
      apply List.map_congr_left
      intro o _
      simp only [hlast, hs, and_false, if_false, Option.or_none]

/-- an empty line, or any line without a blank, ends the method with `IndexError`: what follows it is not read -/
theorem C60_blank_violated (line : List Char) (h : ' ' ∉ line) (lines : List (List Char)) (os : List OcObj) :
    openClose (line :: lines) os = (os, some .indexError) := by
  simp [openClose, parseSwitch, splitCh_not_mem h, item]

/-- two blanks in a row after the name, or any word without `=`, also -/
theorem C60_word_violated (a nm w rest : List Char) (ha : ' ' ∉ a) (hn : ' ' ∉ nm) (hw : ' ' ∉ w) (he : '=' ∉ w)
    (lines : List (List Char)) (os : List OcObj) :
    openClose ((a ++ ' ' :: (nm ++ ' ' :: (w ++ ' ' :: rest))) :: lines) os = (os, some .indexError) := by
  have : splitCh ' ' (a ++ ' ' :: (nm ++ ' ' :: (w ++ ' ' :: rest))) = a :: nm :: w :: splitCh ' ' rest := by
    rw [splitCh_append ha, splitCh_append hn, splitCh_append hw]
  have hd : dataPairs (w :: splitCh ' ' rest) = .error .indexError := by
    rw [dataPairs, splitCh_not_mem he]
    rfl
  rw [openClose, parseSwitch]
  simp only [this, item, List.getElem?_cons_zero, List.getElem?_cons_succ, List.drop_succ_cons, List.drop_zero, hd]
  cases (splitCh '.' nm)[1]? <;> rfl

/-- a name with a dot is cut: the switch `a.b` is not changed, the line `a` is -/
theorem C60_dot_violated : openClose ["New Line.a.b switch=y r1=1e11\n".toList]
    [⟨"a.b".toList, [some false]⟩, ⟨"a".toList, [some false]⟩] =
    ([⟨"a.b".toList, [some false]⟩, ⟨"a".toList, [some true]⟩], none) := by decide +kernel

/-- the keys are compared in lower case, the values are not: a switch written with `Y`, or with `1E11`, is not opened -/
theorem C60_case_violated : openClose ["New Line.a switch=Y r1=1e11\n".toList, "New Line.b Switch=y R1=1E11\n".toList]
    [⟨"a".toList, [some false]⟩, ⟨"b".toList, [some false]⟩] =
    ([⟨"a".toList, [some false]⟩, ⟨"b".toList, [some false]⟩], none) := by decide +kernel

/-- names in the model are compared as they are: a line with an upper case letter in its name is never changed -/
theorem C60_upper_violated (es : List OcEntry) (hp : ∀ e ∈ es, e.Plain) (os : List OcObj) (o : OcObj) (i : Nat) (ho : os[i]? = some o)
    (hu : o.name.map Char.toLower ≠ o.name) : (openClose (es.map (·.text)) os).1[i]? = some o := by
  rw [C60_switches_partial es hp]
  have : lastSwitch es o.name = none := by
    unfold lastSwitch
    rw [List.getLast?_eq_none_iff, List.filter_eq_nil_iff]
    intro e _ h
    rw [Bool.and_eq_true, decide_eq_true_eq] at h
    apply hu
    rw [← h.1, List.map_map]
    apply List.map_congr_left
    intro c _
    exact toLower_idem c
  rw [List.getElem?_map, ho, Option.map_some, this]

/-! ### example -/

example : OcEntry.Plain ⟨"SW1".toList, [("bus1".toList, "a.1".toList), ("Switch".toList, "y".toList), ("r1".toList, "1e11".toList)]⟩ :=
  ⟨by decide, by decide, by decide⟩

example : openClose ["New Line.SW1 bus1=a.1 Switch=y r1=1e11\n".toList, "New Line.sw2 switch=true r1=0.1\n".toList,
    "New Line.l1 r1=1e11\n".toList]
    [⟨"sw1".toList, [none, some false]⟩, ⟨"sw2".toList, [some true]⟩, ⟨"l1".toList, [none]⟩] =
    ([⟨"sw1".toList, [some true, some true]⟩, ⟨"sw2".toList, [some false]⟩, ⟨"l1".toList, [none]⟩], none) := by decide +kernel

end Ditto.Net
