import Verif.Props.GlmParse
import Verif.Spec.GlmNodes
import Mathlib.Data.List.Forall2
import Mathlib.Data.List.Nodup

/-! C72: nodes in GridLAB-D files. -/
namespace Ditto.Glm
open Ditto Glm.Spec

/-! ### rows of the writer -/

theorem entry_statement {blanks k v : Text} (hb : Blank blanks) (hk : Word k) (hp : Plain k) (hv : Token v) :
    Statement (entryRow blanks k v) k v := by
  refine ⟨[], ?_, hp, (fun w h => nomatch h), ?_⟩
  · have hsemi : (';' : Char).isWhitespace = false := by decide
    have h2 : Splits (' ' :: (v ++ [';'])) [v ++ [';']] := by
      have := Splits.cons (s := [' ']) (w := v ++ [';']) (t := []) (ws := []) (by intro c hc; rw [List.mem_singleton] at hc; rw [hc]; decide)
        ⟨by simp, by
          intro c hc
          rcases List.mem_append.mp hc with hc | hc
          · exact hv.1 c hc
          · rw [List.mem_singleton.mp hc]; exact hsemi⟩
        (fun _ h => by cases h) (Splits.nil (fun _ h => by cases h))
      rwa [List.append_nil] at this
    exact Splits.cons hb hk (by intro c hc; cases hc; decide) h2
  · intro w hw
    have hw : v ++ [';'] = w := by injection hw
    subst hw
    rintro (⟨t, ht⟩ | ⟨t, ht⟩)
    · have := congrArg List.getLast? ht
      rw [List.getLast?_concat, List.getLast?_concat] at this
      revert this; decide
    · apply hv.2
      have h1 : t ++ ['}'] ++ [';'] = v ++ [';'] := by rw [← ht]; simp
      rw [← List.append_cancel_right h1, List.getLast?_concat]

theorem four_blank : Blank four := by unfold Blank four; decide

theorem five_blank : Blank (' ' :: four) := by unfold Blank four; decide

theorem word_lit {k : Text} (h : k ≠ [] ∧ ∀ c ∈ k, c.isWhitespace = false) : Word k := h

theorem plain_lit {k : Text} (h : k ≠ "object".toList ∧ k ≠ "schedule".toList ∧ ¬['/', '/'] <+: k) : Plain k := h

theorem body_append {a b : List Text} {l m : List (Text × Text)} (h : Body a l) (hb : Body b m) : Body (a ++ b) (l ++ m) := by
  induction h with
  | nil => exact hb
  | blank he _ ih => exact Body.blank he ih
  | statement hs _ ih => exact Body.statement hs ih

theorem body_one {row k v : Text} (h : Statement row k v) : Body [row] [(k, v)] := Body.statement h Body.nil

/-- the statements of a node -/
def nodeStatements {K : Type} (shown : K → Text) (name : Text) (n : GNode K) : List (Text × Text) :=
  (("name".toList, 'n' :: name) :: (if name = "sourcebus".toList then [("bustype".toList, "SWING".toList)] else [])) ++
    (if n.phases = [] then [] else [("phases".toList, n.phases.flatten ++ ['N'])]) ++
    [("nominal_voltage".toList, match n.voltage with | some v => shown v | none => "12470".toList)]

/-- a node as an object of a file -/
def nodeDecl {K : Type} (shown : K → Text) (name : Text) (n : GNode K) : Decl := ⟨"node".toList, none, nodeStatements shown name n⟩

theorem node_block {K : Type} {shown : K → Text} {flt : Text → Option K} (hk : Numbers shown flt) {n : GNode K} {name : Text}
    (hn : WritableNode n name) : ∃ block, nodeRows shown "sourcebus".toList n = block ++ [[]] ∧ Block block (nodeDecl shown name n) := by
  refine ⟨"object node {".toList :: ((nodeNameRows "sourcebus".toList n.name ++ nodePhaseRows n.phases ++ [nodeVoltageRow shown n.voltage]) ++
    ["};".toList]), ?_, _, _, _, rfl, ⟨by change ':' ∉ "node".toList; decide, _, splits_of rfl⟩, ?_, Or.inr (splits_of rfl)⟩
  · unfold nodeRows
    simp
  · change Body _ (nodeStatements shown name n)
    unfold nodeStatements
    refine body_append (body_append ?_ ?_) ?_
    · rw [hn.named]
      unfold nodeNameRows
      refine Body.statement (entry_statement four_blank (word_lit (by decide)) (plain_lit (by decide)) hn.token) ?_
      split
      · exact body_one (entry_statement four_blank (word_lit (by decide)) (plain_lit (by decide)) (by unfold Token; decide))
      · exact Body.nil
    · unfold nodePhaseRows
      split
      · exact Body.nil
      · refine body_one (entry_statement four_blank (word_lit (by decide)) (plain_lit (by decide)) ⟨?_, ?_⟩)
        · intro c hc
          rcases List.mem_append.mp hc with hc | hc
          · obtain ⟨p, hp, hcp⟩ := List.mem_flatten.mp hc
            obtain ⟨d, rfl, hd⟩ := hn.phases p hp
            rw [List.mem_singleton.mp hcp]; exact hd
          · rw [List.mem_singleton.mp hc]; decide
        · rw [List.getLast?_concat]; decide
    · cases n.voltage with
      | some v => exact body_one (entry_statement five_blank (word_lit (by decide)) (plain_lit (by decide)) (hk.token v))
      | none => exact body_one (entry_statement four_blank (word_lit (by decide)) (plain_lit (by decide)) (by unfold Token; decide))

/-! ### reading one node -/

theorem lastValue_append (l m : List (Text × Text)) (k : Text) : lastValue (l ++ m) k = (lastValue m k).or (lastValue l k) := by
  unfold lastValue
  rw [List.reverse_append, List.find?_append]
  cases m.reverse.find? fun p => decide (p.1 = k) <;> rfl

theorem lastValue_one (k v k' : Text) : lastValue [(k, v)] k' = if k = k' then some v else none := by
  unfold lastValue
  rw [List.reverse_singleton]
  by_cases h : k = k'
  · rw [if_pos h, List.find?_cons_of_pos (by simpa using h)]; rfl
  · rw [if_neg h, List.find?_cons_of_neg (by simpa using h)]; rfl

theorem lastValue_cons (k v : Text) (l : List (Text × Text)) (k' : Text) :
    lastValue ((k, v) :: l) k' = (lastValue l k').or (if k = k' then some v else none) := by
  have := lastValue_append [(k, v)] l k'
  rw [List.singleton_append] at this
  rw [this, lastValue_one]

theorem lastValue_nil (k : Text) : lastValue [] k = none := rfl

theorem lastValue_ite {c : Prop} [Decidable c] (k v k' : Text) :
    lastValue (if c then [(k, v)] else []) k' = if c ∧ k = k' then some v else none := by
  by_cases h : c
  · rw [if_pos h, lastValue_one]; simp [h]
  · rw [if_neg h, lastValue_nil]; simp [h]

theorem lastValue_ite' {c : Prop} [Decidable c] (k v k' : Text) :
    lastValue (if c then [] else [(k, v)]) k' = if ¬c ∧ k = k' then some v else none := by
  by_cases h : c
  · rw [if_pos h, lastValue_nil]; simp [h]
  · rw [if_neg h, lastValue_one]; simp [h]

section
variable {K : Type} (shown : K → Text) (name : Text) (n : GNode K)

theorem node_name : lastValue (nodeStatements shown name n) "name".toList = some ('n' :: name) := by
  unfold nodeStatements
  rw [lastValue_append, lastValue_append, lastValue_cons "name".toList, lastValue_ite, lastValue_ite', lastValue_one, if_neg (by decide), if_neg (by rintro ⟨-, h⟩; revert h; decide),
    if_neg (by rintro ⟨-, h⟩; revert h; decide), if_pos rfl]
  rfl

theorem node_bustype : lastValue (nodeStatements shown name n) "bustype".toList =
    if name = "sourcebus".toList then some "SWING".toList else none := by
  unfold nodeStatements
  rw [lastValue_append, lastValue_append, lastValue_cons "name".toList, lastValue_ite, lastValue_ite', lastValue_one,
    if_neg (show ¬"nominal_voltage".toList = "bustype".toList by decide), if_neg (show ¬"name".toList = "bustype".toList by decide),
    if_neg (show ¬(¬n.phases = [] ∧ "phases".toList = "bustype".toList) by rintro ⟨-, h⟩; revert h; decide)]
  by_cases h : name = "sourcebus".toList
  · rw [if_pos ⟨h, rfl⟩, if_pos h]; rfl
  · rw [if_neg (fun h' => h h'.1), if_neg h]; rfl

theorem node_phases : lastValue (nodeStatements shown name n) "phases".toList =
    if n.phases = [] then none else some (n.phases.flatten ++ ['N']) := by
  unfold nodeStatements
  rw [lastValue_append, lastValue_append, lastValue_cons "name".toList, lastValue_ite, lastValue_ite', lastValue_one, if_neg (by decide)]
  by_cases h : n.phases = []
  · rw [if_neg (fun h' => h'.1 h), if_pos h, if_neg (by rintro ⟨-, h⟩; revert h; decide), if_neg (by decide)]; rfl
  · rw [if_pos ⟨h, rfl⟩, if_neg h]; rfl

theorem node_voltage : lastValue (nodeStatements shown name n) "nominal_voltage".toList =
    some (match n.voltage with | some v => shown v | none => "12470".toList) := by
  unfold nodeStatements
  rw [lastValue_append, lastValue_one, if_pos rfl]
  rfl

end

theorem single_letters {l : List Text} (h : ∀ p ∈ l, ∃ c : Char, p = [c] ∧ c.isWhitespace = false) : l.flatten.map (fun c => [c]) = l := by
  induction l with
  | nil => rfl
  | cons p l ih =>
    obtain ⟨c, rfl, -⟩ := h p List.mem_cons_self
    rw [List.flatten_cons, List.map_append, ih fun q hq => h q (List.mem_cons_of_mem _ hq)]
    rfl

/-- what is read for a node -/
def backNode {K : Type} (twelve : K) (name : Text) (n : GNode K) : GReadNode K :=
  ⟨decide (name = "sourcebus".toList), 'n' :: name, n.phases, some (match n.voltage with | some v => v | none => twelve)⟩

theorem read_stored {K : Type} {shown : K → Text} {flt : Text → Option K} (hk : Numbers shown flt) {twelve : K}
    (h12 : flt "12470".toList = some twelve) {n : GNode K} {name : Text} (hn : WritableNode n name) {o : GldObj}
    (ho : Stored o (nodeDecl shown name n)) : readNode flt o = .ok [backNode twelve name n] := by
  obtain ⟨hc, ha⟩ := ho
  have hget : ∀ k, getEntry k o.attrs = attrOf (nodeDecl shown name n) k := fun k => by rw [getEntry_find]; exact ha k
  have hname : getEntry "name".toList o.attrs = some ('n' :: name) := by
    rw [hget]
    unfold attrOf nameOf
    rw [if_pos rfl]
    change (match lastValue (nodeStatements shown name n) "name".toList, (none : Option Text) with | some n, _ => _ | none, some i => _ | none, none => _) = _
    rw [node_name]
  have hbus : getEntry "bustype".toList o.attrs = if name = "sourcebus".toList then some "SWING".toList else none := by
    rw [hget]; unfold attrOf; rw [if_neg (by decide)]; exact node_bustype shown name n
  have hph : getEntry "phases".toList o.attrs = if n.phases = [] then none else some (n.phases.flatten ++ ['N']) := by
    rw [hget]; unfold attrOf; rw [if_neg (by decide)]; exact node_phases shown name n
  have hvo : getEntry "nominal_voltage".toList o.attrs = some (match n.voltage with | some v => shown v | none => "12470".toList) := by
    rw [hget]; unfold attrOf; rw [if_neg (by decide)]; exact node_voltage shown name n
  have hrv : readVoltage flt o = .ok (some (match n.voltage with | some v => v | none => twelve)) := by
    unfold readVoltage
    rw [hvo]
    dsimp only
    cases n.voltage with
    | some v => dsimp only; rw [hk.inverse]
    | none => dsimp only; rw [h12]
  have hrp : readNodePhases o = n.phases := by
    unfold readNodePhases
    rw [hph]
    by_cases h : n.phases = []
    · rw [if_pos h, h]
    · rw [if_neg h]
      dsimp only
      rw [List.dropLast_concat]
      exact single_letters hn.phases
  have hsw : isSwing o = decide (name = "sourcebus".toList) := by
    unfold isSwing
    rw [hbus]
    by_cases h : name = "sourcebus".toList
    · rw [if_pos h, decide_eq_true h]; decide
    · rw [if_neg h, decide_eq_false h]; rfl
  unfold readNode
  rw [if_pos (Or.inl (show o.cls = "node".toList from hc)), hrv]
  dsimp only
  unfold readName
  rw [hsw, hname, hrp]
  rfl

theorem node_good {K : Type} {schema : Schema} (hs : NodeSchema schema) (shown : K → Text) (name : Text) (n : GNode K) :
    ∃ ps, schema (nodeDecl shown name n).cls = some ps ∧ "name".toList ∈ ps ∧ (∀ p ∈ (nodeDecl shown name n).statements, p.1 ∈ ps) ∧
      nameOf (nodeDecl shown name n) = some ('n' :: name) ∧ (nodeDecl shown name n).cls ∉ leftOut := by
  obtain ⟨ps, h1, h2⟩ := hs
  refine ⟨ps, h1, h2 _ (by decide), ?_, ?_, by change "node".toList ∉ leftOut; decide⟩
  · intro p hp
    apply h2
    change p ∈ nodeStatements shown name n at hp
    unfold nodeStatements at hp
    rcases List.mem_append.mp hp with hp | hp
    · rcases List.mem_append.mp hp with hp | hp
      · rcases List.mem_cons.mp hp with rfl | hp
        · exact List.mem_cons_self
        · split at hp
          · rw [List.mem_singleton.mp hp]; change "bustype".toList ∈ _; decide
          · cases hp
      · split at hp
        · cases hp
        · rw [List.mem_singleton.mp hp]; change "phases".toList ∈ _; decide
    · rw [List.mem_singleton.mp hp]; change "nominal_voltage".toList ∈ _; decide
  · unfold nameOf
    change (match lastValue (nodeStatements shown name n) "name".toList, (none : Option Text) with | some n, _ => _ | none, some i => _ | none, none => _) = _
    rw [node_name]

theorem readNodes_append {K : Type} (flt : Text → Option K) (a b : List (Text × GldObj)) {ra rb : List (GReadNode K)}
    (ha : readGldNodes flt a = .ok ra) (hb : readGldNodes flt b = .ok rb) : readGldNodes flt (a ++ b) = .ok (ra ++ rb) := by
  induction a generalizing ra with
  | nil => cases ha; exact hb
  | cons p a ih =>
    obtain ⟨k, o⟩ := p
    rw [readGldNodes] at ha
    rw [List.cons_append, readGldNodes]
    cases h1 : readNode flt o with
    | error e => rw [h1] at ha; cases ha
    | ok x =>
      rw [h1] at ha
      dsimp only at ha ⊢
      cases h2 : readGldNodes flt a with
      | error e => rw [h2] at ha; cases ha
      | ok y =>
        rw [h2] at ha
        cases ha
        rw [ih h2]
        dsimp only
        rw [List.append_assoc]

/-- the nodes of a file, one after the other -/
theorem nodes_rows {K : Type} {shown : K → Text} {flt : Text → Option K} (hk : Numbers shown flt) {twelve : K}
    (h12 : flt "12470".toList = some twelve) {schema : Schema} (hs : NodeSchema schema) (due : List Text → Py Bool)
    {ns : List (GNode K)} {names : List Text} (h : List.Forall₂ WritableNode ns names) :
    names.Nodup → ∀ D : List (Text × GldObj), (∀ x ∈ names, ('n' :: x) ∉ D.map (·.1)) →
    ∃ D', readRows schema due (stOf D none false) (writeNodeRows shown "sourcebus".toList ns) = .ok (stOf (D ++ D') none false) ∧
      readGldNodes flt D' = .ok (names.zipWith (backNode twelve) ns) ∧ D'.map (·.1) = names.map ('n' :: ·) := by
  induction h with
  | nil => intro _ D _; exact ⟨[], by rw [List.append_nil]; rfl, rfl, rfl⟩
  | @cons n name ns names hn _ ih =>
    intro hnd D hD
    obtain ⟨block, hrows, hblock⟩ := node_block hk hn
    obtain ⟨ps, h1, h2, h3, h4, h5⟩ := node_good hs shown name n
    have hnm := named_whole h1 h2
    rw [h4] at hnm
    obtain ⟨o, ho, hstored⟩ := hnm
    have hfresh : setEntry ('n' :: name) o D = D ++ [('n' :: name, o)] := setEntry_fresh (hD name List.mem_cons_self)
    obtain ⟨D', e1, e2, e3⟩ := ih (List.nodup_cons.mp hnd).2 (D ++ [('n' :: name, o)]) (by
      intro x hx hmem
      rw [List.map_append, List.mem_append] at hmem
      rcases hmem with hmem | hmem
      · exact hD x (List.mem_cons_of_mem _ hx) hmem
      · rw [List.map_singleton, List.mem_singleton] at hmem
        have : x = name := by injection hmem
        exact (List.nodup_cons.mp hnd).1 (this ▸ hx))
    refine ⟨('n' :: name, o) :: D', ?_, ?_, ?_⟩
    · unfold writeNodeRows at e1 ⊢
      rw [List.flatMap_cons, hrows, List.append_assoc, readRows_append, block_rows hblock h5 h1 h2 h3, ho]
      change readRows schema due (stOf (setEntry ('n' :: name) o D) none false) _ = _
      rw [hfresh, List.singleton_append, readRows_cons, empty_row (Or.inl (splits_of rfl))]
      change readRows schema due (stOf (D ++ [('n' :: name, o)]) none false) _ = _
      rw [e1, List.append_assoc]
      rfl
    · exact readNodes_append flt [('n' :: name, o)] D' (ra := [backNode twelve name n]) (by
        rw [readGldNodes, read_stored hk h12 hn hstored]; rfl) e2
    · rw [List.map_cons, e3]; rfl

theorem module_lays : Lays moduleRows [] := by
  refine Lays.outside (Or.inr ⟨"module".toList, _, splits_of rfl, by decide, by decide, by unfold Comment; decide⟩) ?_
  refine Lays.outside (Or.inr ⟨"solver_method".toList, _, splits_of rfl, by decide, by decide, by unfold Comment; decide⟩) ?_
  refine Lays.outside (Or.inr ⟨"NR_iteration_limit".toList, _, splits_of rfl, by decide, by decide, by unfold Comment; decide⟩) ?_
  refine Lays.outside (Or.inr ⟨"};".toList, _, splits_of rfl, by decide, by decide, by unfold Comment; decide⟩) ?_
  exact Lays.outside (Or.inl (Or.inl (splits_of rfl))) Lays.nil

theorem module_rows (schema : Schema) (due : List Text → Py Bool) (D : List (Text × GldObj)) :
    readRows schema due (stOf D none false) moduleRows = .ok (stOf D none false) := by
  have : ∀ {rows : List Text} {ds : List Decl}, Lays rows ds → ds = [] → readRows schema due (stOf D none false) rows = .ok (stOf D none false) := by
    intro rows ds h
    induction h with
    | nil => intro _; rfl
    | outside ho _ ih => intro hd; rw [readRows_cons, outside_row ho]; exact ih hd
    | block _ _ _ => intro hd; cases hd
  exact this module_lays rfl

theorem node_noInclude {K : Type} (shown : K → Text) (ns : List (GNode K)) : NoInclude (writeNodeFile shown ns) := by
  have hblank : ∀ (b k v : Text) (c : Char), b.head? = some c → c ≠ '#' → ¬"#include".toList <+: entryRow b k v := by
    intro b k v c hb hc
    cases b with
    | nil => cases hb
    | cons d b =>
      cases hb
      rintro ⟨t, ht⟩
      unfold entryRow at ht
      injection ht with h1 _
      exact hc h1.symm
  intro row hrow
  rcases List.mem_append.mp hrow with hrow | hrow
  · have : ∀ row ∈ moduleRows, ¬"#include".toList <+: row := by unfold moduleRows; decide
    exact this row hrow
  · obtain ⟨n, -, hrow⟩ := List.mem_flatMap.mp hrow
    unfold nodeRows at hrow
    rcases List.mem_append.mp hrow with hrow | hrow
    · rcases List.mem_cons.mp hrow with rfl | hrow
      · decide
      · rcases List.mem_append.mp hrow with hrow | hrow
        · rcases List.mem_append.mp hrow with hrow | hrow
          · cases hnm : n.name with
            | none => rw [hnm] at hrow; cases hrow
            | some x =>
              rw [hnm] at hrow
              unfold nodeNameRows at hrow
              rcases List.mem_cons.mp hrow with rfl | hrow
              · exact hblank _ _ _ ' ' rfl (by decide)
              · split at hrow
                · rw [List.mem_singleton.mp hrow]; exact hblank _ _ _ ' ' rfl (by decide)
                · cases hrow
          · unfold nodePhaseRows at hrow
            split at hrow
            · cases hrow
            · rw [List.mem_singleton.mp hrow]; exact hblank _ _ _ ' ' rfl (by decide)
        · rw [List.mem_singleton.mp hrow]
          cases n.voltage <;> exact hblank _ _ _ ' ' rfl (by decide)
    · have : ∀ row ∈ ["};".toList, []], ¬"#include".toList <+: row := by decide
      exact this row hrow

/-- all that is read from a file with nodes -/
theorem nodes_back {K : Type} {shown : K → Text} {flt : Text → Option K} (hk : Numbers shown flt) {twelve : K}
    (h12 : flt "12470".toList = some twelve) {schema : Schema} (hs : NodeSchema schema) (due : List Text → Py Bool)
    (files : Text → Option (List Text)) {ns : List (GNode K)} {names : List Text} (h : List.Forall₂ WritableNode ns names) (hn : names.Nodup) :
    readNodeFile schema due files flt [] (writeNodeFile shown ns) = .ok (names.zipWith (backNode twelve) ns) := by
  obtain ⟨D', h1, h2, -⟩ := nodes_rows hk h12 hs due h hn [] (fun _ _ h => by cases h)
  unfold readNodeFile
  rw [readGlm_plain (node_noInclude shown ns)]
  unfold writeNodeFile
  rw [readRows_append, module_rows]
  change (match readRows schema due (stOf [] none false) _ with | .error e => _ | .ok s => _) = _
  rw [h1]
  exact h2

theorem zip_forall {K : Type} {twelve : K} {P : Text → GNode K → GReadNode K → Prop} {ns : List (GNode K)} {names : List Text}
    (h : List.Forall₂ WritableNode ns names) (hp : ∀ n name, WritableNode n name → P name n (backNode twelve name n)) :
    List.Forall₂ (fun n r => ∃ name, n.name = some name ∧ P name n r) ns (names.zipWith (backNode twelve) ns) := by
  induction h with
  | nil => exact List.Forall₂.nil
  | cons hn _ ih => exact List.Forall₂.cons ⟨_, hn.named, hp _ _ hn⟩ ih

/-- C72 (part). Nodes with different names, each one without blanks, are read from the file that was written for them: all of them, in the
same order, with the same phases and with the voltage, if they have one. Names are different from the ones that were written
(`C72_name_violated`), and nodes without voltage (`C72_voltage_violated`) or without name (`C72_unnamed_violated`) are not read as they
were. -/
theorem C72_nodes_partial {K : Type} {shown : K → Text} {flt : Text → Option K} (hk : Numbers shown flt) {twelve : K}
    (h12 : flt "12470".toList = some twelve) {schema : Schema} (hs : NodeSchema schema) (due : List Text → Py Bool)
    (files : Text → Option (List Text)) {ns : List (GNode K)} {names : List Text} (h : List.Forall₂ WritableNode ns names) (hn : names.Nodup) :
    ∃ rs, readNodeFile schema due files flt [] (writeNodeFile shown ns) = .ok rs ∧ List.Forall₂ SameNode ns rs ∧ (rs.map (·.name)).Nodup := by
  refine ⟨_, nodes_back hk h12 hs due files h hn, ?_, ?_⟩
  · refine (zip_forall (P := fun _ n r => SameNode n r) h ?_).imp fun _ _ h => h.choose_spec.2
    intro n name _
    refine ⟨rfl, fun v hv => ?_⟩
    unfold backNode
    rw [hv]
  · have hmap : ∀ {ns : List (GNode K)} {names : List Text}, List.Forall₂ WritableNode ns names →
        (names.zipWith (backNode twelve) ns).map (·.name) = names.map ('n' :: ·) := by
      intro ns names h
      induction h with
      | nil => rfl
      | cons _ _ ih => rw [List.zipWith_cons_cons, List.map_cons, List.map_cons, ih]; rfl
    rw [hmap h]
    exact List.Nodup.map (fun a b hab => (List.cons.inj hab).2) hn

/-- C72 (violated). No node is read with its name: each name has a letter `n` more. -/
theorem C72_name_violated {K : Type} {shown : K → Text} {flt : Text → Option K} (hk : Numbers shown flt) {twelve : K}
    (h12 : flt "12470".toList = some twelve) {schema : Schema} (hs : NodeSchema schema) (due : List Text → Py Bool)
    (files : Text → Option (List Text)) {ns : List (GNode K)} {names : List Text} (h : List.Forall₂ WritableNode ns names) (hn : names.Nodup) :
    ∃ rs, readNodeFile schema due files flt [] (writeNodeFile shown ns) = .ok rs ∧
      List.Forall₂ (fun n r => r.name = 'n' :: (n.name.elim [] id) ∧ some r.name ≠ n.name) ns rs := by
  refine ⟨_, nodes_back hk h12 hs due files h hn, ?_⟩
  refine (zip_forall (P := fun name _ r => r.name = 'n' :: name) h fun _ _ _ => rfl).imp ?_
  rintro n r ⟨name, h1, h2⟩
  rw [h1, h2]
  refine ⟨rfl, fun e => ?_⟩
  have := congrArg (Option.map List.length) e
  simp at this

/-- C72 (violated). A node without voltage has 12470 volts after reading. -/
theorem C72_voltage_violated {K : Type} {shown : K → Text} {flt : Text → Option K} (hk : Numbers shown flt) {twelve : K}
    (h12 : flt "12470".toList = some twelve) {schema : Schema} (hs : NodeSchema schema) (due : List Text → Py Bool)
    (files : Text → Option (List Text)) {ns : List (GNode K)} {names : List Text} (h : List.Forall₂ WritableNode ns names) (hn : names.Nodup) :
    ∃ rs, readNodeFile schema due files flt [] (writeNodeFile shown ns) = .ok rs ∧
      List.Forall₂ (fun n r => n.voltage = none → r.voltage = some twelve) ns rs := by
  refine ⟨_, nodes_back hk h12 hs due files h hn, ?_⟩
  refine (zip_forall (P := fun _ n r => n.voltage = none → r.voltage = some twelve) h ?_).imp fun _ _ h => h.choose_spec.2
  intro n name _ hv
  unfold backNode
  rw [hv]

/-- C72. The node with the name `sourcebus` is read as the power source, and no other one. -/
theorem C72_source {K : Type} {shown : K → Text} {flt : Text → Option K} (hk : Numbers shown flt) {twelve : K}
    (h12 : flt "12470".toList = some twelve) {schema : Schema} (hs : NodeSchema schema) (due : List Text → Py Bool)
    (files : Text → Option (List Text)) {ns : List (GNode K)} {names : List Text} (h : List.Forall₂ WritableNode ns names) (hn : names.Nodup) :
    ∃ rs, readNodeFile schema due files flt [] (writeNodeFile shown ns) = .ok rs ∧
      List.Forall₂ (fun n r => r.source = true ↔ n.name = some "sourcebus".toList) ns rs := by
  refine ⟨_, nodes_back hk h12 hs due files h hn, ?_⟩
  refine (zip_forall (P := fun name _ r => r.source = true ↔ name = "sourcebus".toList) h ?_).imp ?_
  · intro n name _
    exact decide_eq_true_iff
  · rintro n r ⟨name, h1, h2⟩
    rw [h2, h1]
    exact (Option.some_inj).symm

/-- the statements of a node without name -/
def bareStatements {K : Type} (shown : K → Text) (n : GNode K) : List (Text × Text) :=
  (if n.phases = [] then [] else [("phases".toList, n.phases.flatten ++ ['N'])]) ++
    [("nominal_voltage".toList, match n.voltage with | some v => shown v | none => "12470".toList)]

theorem bare_block {K : Type} {shown : K → Text} {flt : Text → Option K} (hk : Numbers shown flt) {n : GNode K} (hn : n.name = none)
    (hp : ∀ p ∈ n.phases, ∃ c : Char, p = [c] ∧ c.isWhitespace = false) :
    ∃ block, nodeRows shown "sourcebus".toList n = block ++ [[]] ∧ Block block ⟨"node".toList, none, bareStatements shown n⟩ := by
  refine ⟨"object node {".toList :: ((nodeNameRows "sourcebus".toList n.name ++ nodePhaseRows n.phases ++ [nodeVoltageRow shown n.voltage]) ++
    ["};".toList]), ?_, _, _, _, rfl, ⟨by change ':' ∉ "node".toList; decide, _, splits_of rfl⟩, ?_, Or.inr (splits_of rfl)⟩
  · unfold nodeRows
    simp
  · change Body _ (bareStatements shown n)
    unfold bareStatements
    rw [hn]
    change Body (nodePhaseRows n.phases ++ _) _
    refine body_append ?_ ?_
    · unfold nodePhaseRows
      split
      · exact Body.nil
      · refine body_one (entry_statement four_blank (word_lit (by decide)) (plain_lit (by decide)) ⟨?_, ?_⟩)
        · intro c hc
          rcases List.mem_append.mp hc with hc | hc
          · obtain ⟨p, hpp, hcp⟩ := List.mem_flatten.mp hc
            obtain ⟨d, rfl, hd⟩ := hp p hpp
            rw [List.mem_singleton.mp hcp]; exact hd
          · rw [List.mem_singleton.mp hc]; decide
        · rw [List.getLast?_concat]; decide
    · cases n.voltage with
      | some v => exact body_one (entry_statement five_blank (word_lit (by decide)) (plain_lit (by decide)) (hk.token v))
      | none => exact body_one (entry_statement four_blank (word_lit (by decide)) (plain_lit (by decide)) (by unfold Token; decide))

/-- C72 (violated). A file with a node without name is written, but it cannot be read, whatever follows. -/
theorem C72_unnamed_violated {K : Type} {shown : K → Text} {flt : Text → Option K} (hk : Numbers shown flt) {twelve : K}
    (h12 : flt "12470".toList = some twelve) {schema : Schema} (hs : NodeSchema schema) (due : List Text → Py Bool)
    (files : Text → Option (List Text)) {ns : List (GNode K)} {names : List Text} (h : List.Forall₂ WritableNode ns names) (hn : names.Nodup)
    {n : GNode K} (hnone : n.name = none) (hp : ∀ p ∈ n.phases, ∃ c : Char, p = [c] ∧ c.isWhitespace = false) (rest : List (GNode K)) :
    readNodeFile schema due files flt [] (writeNodeFile shown (ns ++ n :: rest)) = .error .attributeError := by
  obtain ⟨D', h1, -, -⟩ := nodes_rows hk h12 hs due h hn [] (fun _ _ h => by cases h)
  obtain ⟨block, hrows, hblock⟩ := bare_block hk hnone hp
  obtain ⟨ps, hps, hmem⟩ := hs
  have hnm : nameOf ⟨"node".toList, none, bareStatements shown n⟩ = none := by
    have hno : ∀ k : Text, "phases".toList ≠ k → "nominal_voltage".toList ≠ k → lastValue (bareStatements shown n) k = none := by
      intro k h1 h2
      unfold bareStatements
      rw [lastValue_append, lastValue_ite', lastValue_one, if_neg h2, if_neg (fun h => h1 h.2)]
      rfl
    unfold nameOf
    dsimp only
    rw [hno "name".toList (by decide) (by decide), hno "from".toList (by decide) (by decide)]
  have herr := named_whole (d := ⟨"node".toList, none, bareStatements shown n⟩) hps (hmem _ (by decide))
  rw [hnm] at herr
  unfold readNodeFile
  rw [readGlm_plain (node_noInclude shown _)]
  unfold writeNodeFile
  rw [readRows_append, module_rows]
  change (match readRows schema due (stOf [] none false) (writeNodeRows shown "sourcebus".toList (ns ++ n :: rest)) with | .error e => _ | .ok s => _) = _
  have hsplit : writeNodeRows shown "sourcebus".toList (ns ++ n :: rest) =
      writeNodeRows shown "sourcebus".toList ns ++ (block ++ ([] :: writeNodeRows shown "sourcebus".toList rest)) := by
    unfold writeNodeRows
    rw [List.flatMap_append, List.flatMap_cons, hrows, List.append_assoc]
    rfl
  rw [hsplit, readRows_append, h1]
  change (match readRows schema due (stOf ([] ++ D') none false) _ with | .error e => _ | .ok s => _) = _
  rw [readRows_append, block_rows hblock (by change "node".toList ∉ leftOut; decide) hps (hmem _ (by decide)) ?_, herr]
  · rfl
  · intro p hp
    apply hmem
    change p ∈ bareStatements shown n at hp
    unfold bareStatements at hp
    rcases List.mem_append.mp hp with hp | hp
    · split at hp
      · cases hp
      · rw [List.mem_singleton.mp hp]; change "phases".toList ∈ _; decide
    · rw [List.mem_singleton.mp hp]; change "nominal_voltage".toList ∈ _; decide

/-- reading a file with one object -/
theorem one_object {K : Type} {schema : Schema} {due : List Text → Py Bool} {files : Text → Option (List Text)} {flt : Text → Option K}
    {rows : List Text} {d : Decl} (hb : Block rows d) (hni : NoInclude rows) (hl : d.cls ∉ leftOut) (hg : Good schema d) :
    ∃ o, Stored o d ∧ readNodeFile schema due files flt [] rows = readGldNodes flt [(o.attrs.find? (fun p => p.1 = "name".toList) |>.elim [] (·.2), o)] := by
  rcases hg with hg | ⟨ps, h1, h2, h3, h4⟩
  · exact absurd hg hl
  obtain ⟨n, hn⟩ := Option.isSome_iff_exists.mp h4
  have hnm := named_whole h1 h2
  rw [hn] at hnm
  obtain ⟨o, ho, hst⟩ := hnm
  refine ⟨o, hst, ?_⟩
  unfold readNodeFile
  rw [readGlm_plain hni, block_rows hb hl h1 h2 h3, ho]
  change readGldNodes flt (setEntry n o []) = _
  have := hst.2 "name".toList
  unfold attrOf at this
  rw [if_pos rfl, hn] at this
  cases hf : o.attrs.find? (fun p => p.1 = "name".toList) with
  | none => rw [hf] at this; cases this
  | some q =>
    rw [hf] at this
    injection this with this
    rw [← this]
    rfl

/-- the phases of a node of a file -/
theorem one_node {K : Type} {schema : Schema} {due : List Text → Py Bool} {files : Text → Option (List Text)} {flt : Text → Option K}
    {rows : List Text} {d : Decl} (hb : Block rows d) (hni : NoInclude rows) (hcls : d.cls = "node".toList) (hg : Good schema d)
    {t : Text} {c : Char} (hp : lastValue d.statements "phases".toList = some (t ++ [c]))
    {rs : List (GReadNode K)} (hr : readNodeFile schema due files flt [] rows = .ok rs) :
    ∃ r, rs = [r] ∧ r.phases = t.map fun c => [c] := by
  obtain ⟨o, hst, he⟩ := one_object (due := due) (files := files) (flt := flt) hb hni (by rw [hcls]; decide) hg
  rw [he, readGldNodes] at hr
  have hcl : o.cls = "node".toList := by rw [hst.1, hcls]
  have hph : readNodePhases o = t.map fun c => [c] := by
    unfold readNodePhases
    rw [getEntry_find, hst.2, attrOf, if_neg (by decide), hp]
    dsimp only
    rw [List.dropLast_concat]
  unfold readNode at hr
  rw [if_pos (Or.inl hcl)] at hr
  cases hv : readVoltage flt o with
  | error e => rw [hv] at hr; cases hr
  | ok v =>
    rw [hv] at hr
    cases hr
    exact ⟨_, rfl, hph⟩

/-- C72 (violated). The last phase of a node is lost when the file does not name the neutral after it. -/
theorem C72_last_phase_violated {K : Type} {schema : Schema} {due : List Text → Py Bool} {files : Text → Option (List Text)}
    {flt : Text → Option K} {rows : List Text} {d : Decl} (hb : Block rows d) (hni : NoInclude rows) (hcls : d.cls = "node".toList)
    (hg : Good schema d) {t : Text} {c : Char} (hp : lastValue d.statements "phases".toList = some (t ++ [c])) (hc : c ∉ t)
    {rs : List (GReadNode K)} (hr : readNodeFile schema due files flt [] rows = .ok rs) :
    ∃ r, rs = [r] ∧ [c] ∉ r.phases ∧ ∀ x ∈ t, [x] ∈ r.phases := by
  obtain ⟨r, h1, h2⟩ := one_node hb hni hcls hg hp hr
  refine ⟨r, h1, ?_, ?_⟩
  · rw [h2]
    intro hm
    obtain ⟨x, hx, he⟩ := List.mem_map.mp hm
    injection he with he
    exact hc (he ▸ hx)
  · intro x hx
    rw [h2]
    exact List.mem_map.mpr ⟨x, hx, rfl⟩

/-- C72 (violated). With quotation marks, as in the files of GridLAB-D itself, the first mark is read as a phase, and so is the neutral. -/
theorem C72_quoted_violated {K : Type} {schema : Schema} {due : List Text → Py Bool} {files : Text → Option (List Text)}
    {flt : Text → Option K} {rows : List Text} {d : Decl} (hb : Block rows d) (hni : NoInclude rows) (hcls : d.cls = "node".toList)
    (hg : Good schema d) {t : Text} (hp : lastValue d.statements "phases".toList = some ('"' :: (t ++ ['"'])))
    {rs : List (GReadNode K)} (hr : readNodeFile schema due files flt [] rows = .ok rs) :
    ∃ r, rs = [r] ∧ r.phases = ['"'] :: t.map fun c => [c] :=
  one_node (t := '"' :: t) (c := '"') hb hni hcls hg hp hr

/-! ### examples -/

/-- numbers of an example: strokes, and one text for 12470 -/
def exShown (n : Nat) : Text := if n = 12470 then "12470".toList else List.replicate n '1'

/-- reading strokes -/
def exFloat (t : Text) : Option Nat := if t = "12470".toList then some 12470 else some t.length

theorem ex_numbers : Numbers exShown exFloat := by
  constructor
  · intro x
    unfold exShown exFloat
    by_cases h : x = 12470
    · rw [if_pos h, if_pos rfl, h]
    · rw [if_neg h, if_neg ?_, List.length_replicate]
      intro e
      have : '2' ∈ List.replicate x '1' := by rw [e]; decide
      have := List.eq_of_mem_replicate this
      revert this; decide
  · intro x
    unfold exShown
    split
    · unfold Token; decide
    · refine ⟨fun c hc => ?_, fun h => ?_⟩
      · rw [List.eq_of_mem_replicate hc]; decide
      · have := List.eq_of_mem_replicate (List.mem_of_getLast? h)
        revert this; decide

/-- three nodes: the source, one without voltage, one without phases -/
def exNodes : List (GNode Nat) :=
  [⟨some "sourcebus".toList, ["A".toList, "B".toList, "C".toList], some 3⟩, ⟨some "b2".toList, ["C".toList], none⟩, ⟨some "b3".toList, [], some 2⟩]

theorem ex_writable : List.Forall₂ WritableNode exNodes ["sourcebus".toList, "b2".toList, "b3".toList] := by
  refine .cons ⟨rfl, by unfold Token; decide, ?_⟩ (.cons ⟨rfl, by unfold Token; decide, ?_⟩ (.cons ⟨rfl, by unfold Token; decide, ?_⟩ .nil))
  · intro p hp
    simp only [List.mem_cons, List.not_mem_nil, or_false] at hp
    rcases hp with rfl | rfl | rfl
    · exact ⟨'A', rfl, by decide⟩
    · exact ⟨'B', rfl, by decide⟩
    · exact ⟨'C', rfl, by decide⟩
  · intro p hp
    simp only [List.mem_cons, List.not_mem_nil, or_false] at hp
    exact ⟨'C', hp, by decide⟩
  · intro p hp; cases hp

/-- a schema with nodes -/
def exNodeSchema : Schema := fun c =>
  if c = "node".toList then some ["name".toList, "bustype".toList, "phases".toList, "nominal_voltage".toList] else none

theorem ex_nodeSchema : NodeSchema exNodeSchema := ⟨_, rfl, by decide⟩

/-- the hypotheses of the theorems hold for the three nodes -/
example : ∃ rs, readNodeFile exNodeSchema (fun _ => .ok true) (fun _ => none) exFloat [] (writeNodeFile exShown exNodes) = .ok rs ∧
    List.Forall₂ SameNode exNodes rs ∧ (rs.map (·.name)).Nodup :=
  C72_nodes_partial ex_numbers rfl ex_nodeSchema _ _ ex_writable (by decide)

example : readNodeFile exNodeSchema (fun _ => .ok true) (fun _ => none) exFloat [] (writeNodeFile exShown exNodes) =
    .ok [⟨true, "nsourcebus".toList, ["A".toList, "B".toList, "C".toList], some 3⟩, ⟨false, "nb2".toList, ["C".toList], some 12470⟩,
      ⟨false, "nb3".toList, [], some 2⟩] := nodes_back ex_numbers rfl ex_nodeSchema _ _ ex_writable (by decide)

example : readNodeFile exNodeSchema (fun _ => .ok true) (fun _ => none) exFloat []
    (writeNodeFile exShown (exNodes ++ ⟨none, [], some 1⟩ :: [])) = .error .attributeError :=
  C72_unnamed_violated ex_numbers (twelve := 12470) rfl ex_nodeSchema _ _ ex_writable (by decide) rfl (fun _ h => by cases h) []

/-- a node with quotation marks -/
def exQuoted : List Text := ["object node {".toList, "  name n1;".toList, "  phases \"ABCN\";".toList, "}".toList]

/-- a node without neutral -/
def exDelta : List Text := ["object node {".toList, "  name n1;".toList, "  phases ABC;".toList, "}".toList]

theorem ex_block (v : Text) (row : Text) (h : Statement row "phases".toList v) :
    Block ["object node {".toList, "  name n1;".toList, row, "}".toList] ⟨"node".toList, none, [("name".toList, "n1".toList), ("phases".toList, v)]⟩ := by
  refine ⟨_, ["  name n1;".toList, row], _, rfl, ⟨by change ':' ∉ "node".toList; decide, _, splits_of rfl⟩, ?_, Or.inl (splits_of rfl)⟩
  refine Body.statement ?_ (Body.statement h Body.nil)
  exact ⟨[], splits_of rfl, by unfold Plain Comment; decide, (fun w h => nomatch h), by
    intro w hw
    have hw : "n1;".toList = w := by injection hw
    subst hw; unfold EndsBlock; decide⟩

theorem ex_stmt (v row : Text) (hw : words row = ["phases".toList, v ++ [';']]) (he : ¬EndsBlock (v ++ [';'])) : Statement row "phases".toList v :=
  ⟨[], splits_of hw, by unfold Plain Comment; decide, (fun w h => nomatch h), by
    intro w hw
    have hw : v ++ [';'] = w := by injection hw
    subst hw; exact he⟩

theorem ex_goodNode (v : Text) : Good exNodeSchema ⟨"node".toList, none, [("name".toList, "n1".toList), ("phases".toList, v)]⟩ := by
  refine Or.inr ⟨_, rfl, by decide, ?_, rfl⟩
  intro p hp
  simp only [List.mem_cons, List.not_mem_nil, or_false] at hp
  rcases hp with rfl | rfl
  · change "name".toList ∈ _; decide
  · change "phases".toList ∈ _; decide

example : ∃ r, readNodeFile exNodeSchema (fun _ => .ok true) (fun _ => none) exFloat [] exDelta = .ok [r] ∧ ['C'] ∉ r.phases ∧
    ∀ x ∈ ['A', 'B'], [x] ∈ r.phases := by
  have h := C72_last_phase_violated (K := Nat) (schema := exNodeSchema) (due := fun _ => .ok true) (files := fun _ => none) (flt := exFloat)
    (ex_block "ABC".toList "  phases ABC;".toList (ex_stmt _ _ (by decide +kernel) (by unfold EndsBlock; decide)))
    (by unfold NoInclude; decide) rfl (ex_goodNode _) (t := ['A', 'B']) (c := 'C') rfl (by decide)
    (rs := [⟨false, "n1".toList, [['A'], ['B']], none⟩]) (by decide +kernel)
  obtain ⟨r, h1, h2⟩ := h
  exact ⟨r, h1 ▸ (by decide +kernel), h2⟩

example : ∃ r, readNodeFile exNodeSchema (fun _ => .ok true) (fun _ => none) exFloat [] exQuoted = .ok [r] ∧
    r.phases = [['"'], ['A'], ['B'], ['C'], ['N']] := by
  have h := C72_quoted_violated (K := Nat) (schema := exNodeSchema) (due := fun _ => .ok true) (files := fun _ => none) (flt := exFloat)
    (ex_block "\"ABCN\"".toList "  phases \"ABCN\";".toList (ex_stmt _ _ (by decide +kernel) (by unfold EndsBlock; decide)))
    (by unfold NoInclude; decide) rfl (ex_goodNode _) (t := "ABCN".toList) rfl
    (rs := [⟨false, "n1".toList, [['"'], ['A'], ['B'], ['C'], ['N']], none⟩]) (by decide +kernel)
  obtain ⟨r, h1, h2⟩ := h
  exact ⟨r, h1 ▸ (by decide +kernel), h2⟩

end Ditto.Glm
