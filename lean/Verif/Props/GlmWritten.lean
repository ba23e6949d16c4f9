import Verif.Props.GlmCaps
import Verif.Props.GlmLoadWrite

/-! Lemmas for objects that are written to GridLAB-D files, and read again. -/
namespace Ditto.Glm
open Ditto Glm.Spec

/-! ### attributes that may be missing -/

/-- the entries that are there -/
def flatEntries (l : List (Text × Option Text)) : List (Text × Text) := l.flatMap fun p => optEntry p.1 p.2

theorem flat_append (a b : List (Text × Option Text)) : flatEntries (a ++ b) = flatEntries a ++ flatEntries b := List.flatMap_append

theorem mem_flat {l : List (Text × Option Text)} {k v : Text} : (k, v) ∈ flatEntries l ↔ (k, some v) ∈ l := by
  unfold flatEntries
  rw [List.mem_flatMap]
  constructor
  · rintro ⟨⟨k', o⟩, h1, h2⟩
    cases o with
    | none => cases h2
    | some w =>
      obtain h2 := List.mem_singleton.mp h2
      cases h2
      exact h1
  · intro h
    exact ⟨_, h, List.mem_singleton.mpr rfl⟩

theorem flat_value {l : List (Text × Option Text)} (hn : (l.map (·.1)).Nodup) {k : Text} {o : Option Text} (h : (k, o) ∈ l) :
    lastValue (flatEntries l) k = o := by
  have hu : ∀ {o'}, (k, o') ∈ l → o' = o := by
    intro o' h'
    have := List.inj_on_of_nodup_map hn h' h rfl
    injection this
  cases o with
  | none =>
    refine lastValue_none fun p hp e => ?_
    obtain ⟨k', v⟩ := p
    have e : k' = k := e
    subst e
    exact absurd (hu (mem_flat.mp hp)) (by simp)
  | some v =>
    refine lastValue_unique (mem_flat.mpr h) fun v' h' => ?_
    have := hu (mem_flat.mp h')
    injection this

theorem flat_out {l : List (Text × Option Text)} {k : Text} (h : k ∉ l.map (·.1)) : lastValue (flatEntries l) k = none := by
  refine lastValue_none fun p hp e => h ?_
  obtain ⟨k', v⟩ := p
  have e : k' = k := e
  subst e
  exact List.mem_map.mpr ⟨_, mem_flat.mp hp, rfl⟩

/-! ### the rows of an object -/

theorem entries_body {l : List (Text × Text)} (h : ∀ p ∈ l, Word p.1 ∧ Plain p.1 ∧ Token p.2) :
    Body (l.map fun p => entryRow four p.1 p.2) l ∧ Indented (l.map fun p => entryRow four p.1 p.2) := by
  induction l with
  | nil => exact ⟨.nil, (fun _ h => by cases h)⟩
  | cons p l ih =>
    obtain ⟨a, b⟩ := ih fun q hq => h q (List.mem_cons_of_mem _ hq)
    obtain ⟨h1, h2, h3⟩ := h p List.mem_cons_self
    exact ⟨.statement (entry_statement four_blank h1 h2 h3) a, indented_append (indented_entry p.1 p.2) b⟩

theorem entries_block {cls : Text} (hc : ':' ∉ cls) (hw : words ("object ".toList ++ cls ++ " {".toList) = ["object".toList, cls, ['{']])
    {l : List (Text × Text)} (h : ∀ p ∈ l, Word p.1 ∧ Plain p.1 ∧ Token p.2) :
    Block (("object ".toList ++ cls ++ " {".toList) :: ((l.map fun p => entryRow four p.1 p.2) ++ ["};".toList])) ⟨cls, none, l⟩ :=
  ⟨_, _, _, rfl, ⟨hc, _, splits_of hw⟩, (entries_body h).1, Or.inr (splits_of rfl)⟩

theorem object_plain (cls : Text) : ¬"#include".toList <+: "object ".toList ++ cls ++ " {".toList := by
  rintro ⟨t, ht⟩
  rw [show "object ".toList = 'o' :: "bject ".toList by decide, show "#include".toList = '#' :: "include".toList by decide] at ht
  injection ht with ht _
  exact absurd ht (by decide)

theorem entries_plain {cls : Text} {l : List (Text × Text)} (h : ∀ p ∈ l, Word p.1 ∧ Plain p.1 ∧ Token p.2) : NoInclude (entryRows cls l) := by
  unfold entryRows
  have h1 : NoInclude [("object ".toList ++ cls ++ " {".toList)] := by
    intro row hr
    rw [List.mem_singleton.mp hr]
    exact object_plain cls
  have h2 : NoInclude ["};".toList, []] := by unfold NoInclude; decide
  exact noInclude_append (noInclude_append h1 (indented_plain (entries_body h).2)) h2

theorem entries_lay {W : Type} {cls : Text} (hc : ':' ∉ cls) (hw : words ("object ".toList ++ cls ++ " {".toList) = ["object".toList, cls, ['{']])
    {entries : W → List (Text × Text)} {ws : List W} (h : ∀ w ∈ ws, ∀ p ∈ entries w, Word p.1 ∧ Plain p.1 ∧ Token p.2) :
    Lays (ws.flatMap fun w => entryRows cls (entries w)) (ws.map fun w => ⟨cls, none, entries w⟩) ∧
      NoInclude (ws.flatMap fun w => entryRows cls (entries w)) := by
  induction ws with
  | nil => exact ⟨.nil, (fun _ h => by cases h)⟩
  | cons w ws ih =>
    obtain ⟨a, b⟩ := ih fun x hx => h x (List.mem_cons_of_mem _ hx)
    have hb := entries_block hc hw (h w List.mem_cons_self)
    refine ⟨?_, noInclude_append (entries_plain (h w List.mem_cons_self)) b⟩
    have := Lays.block hb (Lays.outside (row := []) (Or.inl (Or.inl (splits_of rfl))) a)
    rw [List.flatMap_cons, List.map_cons]
    refine (congrArg (fun x => Lays x _) ?_).mp this
    unfold entryRows
    simp

/-! ### reading the objects of one class again -/

section back
variable {W R : Type} {cls : Text} {f : GldObj → Py R} {Says : Decl → R → Prop} {schema : Schema} {decl : W → Decl} {ws : List W} {names : List Text}

theorem zip_right (hlen : ws.length = names.length) {w : W} (hw : w ∈ ws) : ∃ name, (w, name) ∈ ws.zip names := by
  obtain ⟨i, hi, rfl⟩ := List.mem_iff_getElem.mp hw
  exact ⟨names[i]'(by omega), by rw [List.mem_iff_getElem]; exact ⟨i, by rw [List.length_zip]; omega, List.getElem_zip⟩⟩

theorem zip_left (hlen : ws.length = names.length) {name : Text} (hw : name ∈ names) : ∃ w, (w, name) ∈ ws.zip names := by
  obtain ⟨i, hi, rfl⟩ := List.mem_iff_getElem.mp hw
  exact ⟨ws[i]'(by omega), by rw [List.mem_iff_getElem]; exact ⟨i, by rw [List.length_zip]; omega, List.getElem_zip⟩⟩

/-- each written object is the last one with its name -/
theorem last_written (hcls : cls ∉ leftOut) (hd : ∀ p ∈ ws.zip names, (decl p.1).cls = cls ∧ nameOf (decl p.1) = some ('n' :: p.2))
    (hlen : ws.length = names.length) (hn : names.Nodup) {p : W × Text} (hp : p ∈ ws.zip names) :
    lastNamed (ws.map decl) ('n' :: p.2) = some (decl p.1) := by
  induction ws generalizing names with
  | nil => cases hp
  | cons w ws ih =>
    cases names with
    | nil => cases hp
    | cons name names =>
      rw [List.nodup_cons] at hn
      rw [List.map_cons, ← List.singleton_append, lastNamed_append]
      have hlen' : ws.length = names.length := by simpa using hlen
      rw [List.zip_cons_cons] at hp hd
      rcases List.mem_cons.mp hp with rfl | hp
      · obtain ⟨h1, h2⟩ := hd (w, name) List.mem_cons_self
        rw [lastNamed_none, Option.none_or]
        · unfold lastNamed
          rw [List.reverse_singleton, List.find?_cons_of_pos]
          rw [h1, h2]
          simp [hcls]
        · intro d hdm e
          obtain ⟨x, hx, rfl⟩ := List.mem_map.mp hdm
          obtain ⟨m, hz⟩ := zip_right hlen' hx
          have := (hd _ (List.mem_cons_of_mem _ hz)).2
          rw [e] at this
          injection this with this
          injection this with _ this
          exact hn.1 (by have h3 : name = m := this; rw [h3]; exact (List.of_mem_zip hz).2)
      · rw [ih (fun q hq => hd q (List.mem_cons_of_mem _ hq)) hlen' hn.2 hp]
        rfl

/-- reading again: all objects, when nothing else in the file has this class, and no later object has the same name -/
theorem objects_back (hcls : cls ∉ leftOut) (hd : ∀ p ∈ ws.zip names, (decl p.1).cls = cls ∧ nameOf (decl p.1) = some ('n' :: p.2))
    (hlen : ws.length = names.length) (hn : names.Nodup) {rows pre post : List Text} {before after : List Decl} (hlay : Lays rows (ws.map decl))
    (hi2 : NoInclude rows) (hpre : Lays pre before) (hpost : Lays post after) (hi : NoInclude pre) (hi' : NoInclude post)
    (hg : ∀ d ∈ before ++ after, Good schema d) (hgood : ∀ w ∈ ws, Good schema (decl w)) (hnc : ∀ d ∈ before ++ after, d.cls ≠ cls)
    (hclash : ∀ d ∈ after, ∀ name ∈ names, nameOf d ≠ some ('n' :: name)) (due : List Text → Py Bool) (files : Text → Option (List Text)) :
    ∃ s ds, readGlm schema due files [] (pre ++ rows ++ post) = .ok s ∧ Holds s.objects [] ds ∧
      (∀ p ∈ ws.zip names, lastNamed ds ('n' :: p.2) = some (decl p.1)) ∧
      (∀ n d, lastNamed ds n = some d → d.cls = cls → ∃ p ∈ ws.zip names, d = decl p.1 ∧ n = 'n' :: p.2) := by
  have hlays := lays_append (lays_append hpre hlay) hpost
  obtain ⟨s, hr, hh⟩ := C71_objects_partial due files hlays (noInclude_append (noInclude_append hi hi2) hi') (schema := schema) (by
    intro d hd
    rcases List.mem_append.mp hd with hd | hd
    · rcases List.mem_append.mp hd with hd | hd
      · exact hg d (List.mem_append_left _ hd)
      · obtain ⟨w, hw, rfl⟩ := List.mem_map.mp hd
        exact hgood w hw
    · exact hg d (List.mem_append_right _ hd)) []
  refine ⟨s, _, hr, hh, ?_, ?_⟩
  · intro p hp
    rw [lastNamed_append, lastNamed_append, lastNamed_none fun d hd => hclash d hd p.2 (List.of_mem_zip hp).2, Option.none_or,
      last_written hcls hd hlen hn hp]
    rfl
  · intro n d hdn hc
    have hm := List.mem_reverse.mp (List.mem_of_find?_eq_some hdn)
    rcases List.mem_append.mp hm with hm | hm
    · rcases List.mem_append.mp hm with hm | hm
      · exact absurd hc (hnc d (List.mem_append_left _ hm))
      · obtain ⟨w, hw, rfl⟩ := List.mem_map.mp hm
        obtain ⟨name, hz⟩ := zip_right hlen hw
        refine ⟨(w, name), hz, rfl, ?_⟩
        have h1 := lastNamed_name hdn
        rw [(hd _ hz).2] at h1
        injection h1 with e
        exact e.symm
    · exact absurd hc (hnc d (List.mem_append_right _ hm))

/-- as many results as were written -/
theorem back_length (hlen : ws.length = names.length) (hn : names.Nodup) {ds : List Decl} {ns : List Text} (hnd : ns.Nodup)
    (hd : ∀ p ∈ ws.zip names, (decl p.1).cls = cls ∧ nameOf (decl p.1) = some ('n' :: p.2))
    (hat : ∀ p ∈ ws.zip names, lastNamed ds ('n' :: p.2) = some (decl p.1))
    (hof : ∀ n d, lastNamed ds n = some d → d.cls = cls → ∃ p ∈ ws.zip names, d = decl p.1 ∧ n = 'n' :: p.2)
    (hmem : ∀ n, n ∈ ns ↔ ∃ d, lastNamed ds n = some d ∧ d.cls = cls) : ns.length = ws.length := by
  rw [hlen, ← List.length_map (f := ('n' :: ·)) (as := names)]
  refine List.Perm.length_eq ((List.perm_ext_iff_of_nodup hnd (hn.map fun a b e => by injection e)).mpr fun n => ?_)
  rw [hmem]
  constructor
  · rintro ⟨d, hdn, hc⟩
    obtain ⟨p, hp, -, rfl⟩ := hof n d hdn hc
    exact List.mem_map.mpr ⟨p.2, (List.of_mem_zip hp).2, rfl⟩
  · intro hm
    obtain ⟨name, hname, rfl⟩ := List.mem_map.mp hm
    obtain ⟨w, hz⟩ := zip_left hlen hname
    exact ⟨_, hat _ hz, (hd _ hz).1⟩

end back

/-- an attribute that the schema does not have makes the file unreadable -/
theorem unknown_entry {schema : Schema} {cls : Text} (hc : ':' ∉ cls) (hw : words ("object ".toList ++ cls ++ " {".toList) = ["object".toList, cls, ['{']])
    (hcls : cls ∉ leftOut) {ps : List Text} (hs : schema cls = some ps) (hname : "name".toList ∈ ps) {a b : List (Text × Text)} {k v : Text}
    (h : ∀ p ∈ a ++ (k, v) :: b, Word p.1 ∧ Plain p.1 ∧ Token p.2) (ha : ∀ p ∈ a, p.1 ∈ ps) (hk : k ∉ ps) {pre post : List Text}
    {before : List Decl} (hpre : Lays pre before) (hi : NoInclude pre) (hi' : NoInclude post) (hg : ∀ d ∈ before, Good schema d)
    (due : List Text → Py Bool) (files : Text → Option (List Text)) :
    readGlm schema due files [] (pre ++ entryRows cls (a ++ (k, v) :: b) ++ post) = .error .attributeError := by
  have hni := noInclude_append (noInclude_append hi (entries_plain (cls := cls) h)) hi'
  have hcat : pre ++ entryRows cls (a ++ (k, v) :: b) ++ post = pre ++ (("object ".toList ++ cls ++ " {".toList) ::
      ((a.map fun p => entryRow four p.1 p.2) ++ [entryRow four k v])) ++ ((b.map fun p => entryRow four p.1 p.2) ++ ["};".toList, []] ++ post) := by
    simp only [entryRows, List.map_append, List.map_cons, List.append_assoc, List.cons_append, List.nil_append]
  rw [hcat] at hni ⊢
  obtain ⟨h1, h2, h3⟩ := h (k, v) (by simp)
  exact C71_attribute_violated due files hpre hg [] (d := ⟨cls, none, a⟩) hni ⟨hc, _, splits_of hw⟩
    (entries_body fun p hp => h p (List.mem_append_left _ hp)).1 (entry_statement four_blank h1 h2 h3) hcls hs hname ha hk

end Ditto.Glm
