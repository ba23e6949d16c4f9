import Verif.Lemmas.GlmLines
import Verif.Props.GlmCapWrite

/-! C91 and C92: line configurations and lines in the GridLAB-D writer. -/
namespace Ditto.Glm
open Ditto Glm.Spec

section numbers
variable {K : Type} {showCx : Cx K → Text} {cpx : Text → Option (Cx K)}

/-! ### the configurations -/

/-- the object of a configuration -/
def configDecl (p : List (Text × Text) × Text) : Decl := ⟨"line_configuration".toList, none, setEntry "name".toList p.2 p.1⟩

/-- what a dictionary of impedances contains -/
def DictOf (showCx : Cx K → Text) (l : WGLine K) (cs : List Char) (d : List (Text × Text)) : Prop :=
  ∀ p, p ∈ d ↔ ∃ a ∈ cs, ∃ b ∈ cs, ∃ z, Impedance l cs a b z ∧ p = (zKey a b, zText showCx z)

theorem impedance_unique {l : WGLine K} {cs : List Char} {a b : Char} {z z' : Cx K} (h : Impedance l cs a b z) (h' : Impedance l cs a b z') :
    z = z' := by
  obtain ⟨m, row, h1, h2, h3⟩ := h
  obtain ⟨m', row', h1', h2', h3'⟩ := h'
  rw [h1] at h1'
  cases h1'
  rw [h2] at h2'
  cases h2'
  rw [h3] at h3'
  cases h3'
  rfl

theorem zKey_name {a b : Char} : zKey a b ≠ "name".toList := by
  intro h
  have := congrArg List.length h
  revert this
  show (3 : Nat) = "name".toList.length → False
  decide

theorem decl_statements {p : List (Text × Text) × Text} {l : WGLine K} {cs : List Char} (h : DictOf showCx l cs p.1) :
    (configDecl p).statements = p.1 ++ [("name".toList, p.2)] := by
  refine setEntry_fresh fun hm => ?_
  obtain ⟨q, hq, e⟩ := List.mem_map.mp hm
  obtain ⟨a, -, b, -, z, -, rfl⟩ := (h q).mp hq
  exact zKey_name e

theorem config_decl_name {p : List (Text × Text) × Text} {l : WGLine K} {cs : List Char} (h : DictOf showCx l cs p.1) :
    nameOf (configDecl p) = some p.2 := by
  unfold nameOf
  rw [decl_statements h, lastValue_append, lastValue_one, if_pos rfl]
  rfl

/-- the text of an impedance in a configuration -/
theorem decl_value {p : List (Text × Text) × Text} {l : WGLine K} {cs : List Char} (hl : ∀ c ∈ cs, c ∈ ['A', 'B', 'C']) (h : DictOf showCx l cs p.1)
    {a b : Char} (ha : a ∈ cs) (hb : b ∈ cs) {z : Cx K} (hz : Impedance l cs a b z) : attrOf (configDecl p) (zKey a b) = some (zText showCx z) := by
  unfold attrOf
  rw [if_neg zKey_name, decl_statements h, lastValue_append, lastValue_one, if_neg (fun e => zKey_name e.symm)]
  refine lastValue_unique ((h _).mpr ⟨a, ha, b, hb, z, hz, rfl⟩) fun v' hv' => ?_
  obtain ⟨a', ha', b', hb', z', hz', e⟩ := (h _).mp hv'
  injection e with e1 e2
  obtain ⟨rfl, rfl⟩ := zKey_inj (hl a ha) (hl b hb) (hl a' ha') (hl b' hb') e1
  rw [e2, impedance_unique hz hz']

theorem decl_out {p : List (Text × Text) × Text} {l : WGLine K} {cs : List Char} (hl : ∀ c ∈ cs, c ∈ ['A', 'B', 'C']) (h : DictOf showCx l cs p.1)
    {a b : Char} (ha : a ∈ ['A', 'B', 'C']) (hb : b ∈ ['A', 'B', 'C']) (hn : ¬(a ∈ cs ∧ b ∈ cs)) : attrOf (configDecl p) (zKey a b) = none := by
  unfold attrOf
  rw [if_neg zKey_name, decl_statements h, lastValue_append, lastValue_one, if_neg (fun e => zKey_name e.symm)]
  refine lastValue_none fun q hq e => ?_
  obtain ⟨a', ha', b', hb', z', hz', rfl⟩ := (h _).mp hq
  obtain ⟨rfl, rfl⟩ := zKey_inj (hl a' ha') (hl b' hb') ha hb e
  exact hn ⟨ha', hb'⟩

/-- all but the signs of numbers of one part is as it should be -/
theorem says_of {p : List (Text × Text) × Text} {l : WGLine K} {cs : List Char} (hi : Impedances showCx cpx) (hl : ∀ c ∈ cs, c ∈ ['A', 'B', 'C'])
    (h : DictOf showCx l cs p.1) : ConfigSays showCx cpx l cs (configDecl p) := by
  refine ⟨?_, fun a ha b hb hn => decl_out hl h ha hb hn⟩
  intro a ha b hb z hz hneg
  refine ⟨_, decl_value hl h ha hb hz, ?_⟩
  unfold zText
  by_cases ho : OnePart (stripParens (showCx z))
  · rw [withReal_pos ho]
    exact hi.zero z ho hneg
  · rw [withReal_neg ho]
    exact hi.inverse z

theorem zKey_word {a b : Char} (ha : a ∈ ['A', 'B', 'C']) (hb : b ∈ ['A', 'B', 'C']) : Word (zKey a b) ∧ Plain (zKey a b) := by
  simp only [List.mem_cons, List.not_mem_nil, or_false] at ha hb
  rcases ha with rfl | rfl | rfl <;> rcases hb with rfl | rfl | rfl <;> exact ⟨word_lit (by decide), plain_lit (by decide)⟩

/-- what is known after writing the configurations to the first file -/
structure Configs (showCx : Cx K → Text) (ls : List (WGLine K)) (st : LineConfigs) (rows : List Text) : Prop where
  run : writeConfigs showCx {} 1 ls = .ok (st, rows)
  lays : Lays rows (st.configs.map configDecl)
  plain : NoInclude rows
  named : ∀ p ∈ st.configs, nameOf (configDecl p) = some p.2
  once : (st.configs.map (·.2)).Nodup
  origin : ∀ p ∈ st.configs, ∃ l ∈ ls, Configured l ∧ zDict showCx l = .ok p.1
  found : ∀ l ∈ ls, Configured l → ∀ d, zDict showCx l = .ok d → ∃ n, findConfig st.configs d = some n
  unset : ∀ name, (∀ l ∈ ls, Configured l → l.name ≠ some name) → configOf st.names name = none
  set : ∀ l ∈ ls, Configured l → ∀ name, l.name = some name → ∀ d, zDict showCx l = .ok d →
    (∀ l' ∈ ls, Configured l' → l'.name = some name → zDict showCx l' = .ok d) → configOf st.names name = findConfig st.configs d
  tokens : ∀ name t, configOf st.names name = some t → Token t

theorem dictOf_ok {l : WGLine K} {cs : List Char} (h : WritableMatrix l cs) : ∃ d, zDict showCx l = .ok d ∧ DictOf showCx l cs d := by
  obtain ⟨d, h1, -, h2⟩ := dict_ok (showCx := showCx) h
  exact ⟨d, h1, h2⟩

theorem configs_written {ls : List (WGLine K)} (htok : ∀ z, Token (stripParens (showCx z)))
    (h : ∀ l ∈ ls, Configured l → ∃ cs, WritableMatrix l cs) : ∃ st rows, Configs showCx ls st rows := by
  obtain ⟨new, names, D⟩ := loop_done (showCx := showCx) (ls := ls) (st := {}) (count := 1) fun l hl hc => by
    obtain ⟨cs, hcs⟩ := h l hl hc
    obtain ⟨d, hd, -⟩ := dictOf_ok (showCx := showCx) hcs
    exact ⟨d, hd⟩
  have hdict : ∀ p ∈ new, ∃ l cs, WritableMatrix l cs ∧ DictOf showCx l cs p.1 := by
    intro p hp
    obtain ⟨l, hl, hc, hd⟩ := D.origin p hp
    obtain ⟨cs, hcs⟩ := h l hl hc
    obtain ⟨d, hd', hdo⟩ := dictOf_ok (showCx := showCx) hcs
    rw [hd] at hd'
    cases hd'
    exact ⟨l, cs, hcs, hdo⟩
  have hname : ∀ p ∈ new, ∃ i, p.2 = configName i := by
    intro p hp
    have : p.2 ∈ new.map (·.2) := List.mem_map.mpr ⟨p, hp, rfl⟩
    rw [D.numbered] at this
    obtain ⟨i, -, e⟩ := List.mem_map.mp this
    exact ⟨_, e.symm⟩
  have hlay := entries_lay (cls := "line_configuration".toList) (by decide) (by decide)
    (entries := fun p : List (Text × Text) × Text => setEntry "name".toList p.2 p.1) (ws := new) (by
      intro p hp q hq
      obtain ⟨l, cs, hcs, hdo⟩ := hdict p hp
      have hq : q ∈ (configDecl p).statements := hq
      rw [decl_statements hdo] at hq
      rcases List.mem_append.mp hq with hq | hq
      · obtain ⟨a, ha, b, hb, z, -, rfl⟩ := (hdo q).mp hq
        obtain ⟨h1, h2⟩ := zKey_word (hcs.letters.letters a ha) (hcs.letters.letters b hb)
        exact ⟨h1, h2, withReal_token (htok z)⟩
      · rw [List.mem_singleton.mp hq]
        obtain ⟨i, hi⟩ := hname p hp
        refine ⟨word_lit (k := "name".toList) (by decide), plain_lit (k := "name".toList) (by decide), ?_⟩
        show Token p.2
        rw [hi]
        exact configName_token i)
  have hnil : (({} : LineConfigs).configs ++ new) = new := rfl
  refine ⟨⟨new, names⟩, _, D.run, hlay.1, hlay.2, ?_, ?_, D.origin, D.found, ?_, D.set, ?_⟩
  · intro p hp
    obtain ⟨l, cs, -, hdo⟩ := hdict p hp
    exact config_decl_name hdo
  · show (new.map (·.2)).Nodup
    rw [D.numbered]
    refine List.Nodup.map (fun i j e => ?_) List.nodup_range
    have := configName_inj e
    omega
  · intro name hn
    rw [D.kept name hn]
    rfl
  · intro name t ht
    unfold configOf at ht
    obtain ⟨q, h1, h2⟩ := Option.map_eq_some_iff.mp ht
    rcases D.known q (List.mem_of_find?_eq_some h1) with h3 | h3
    · cases h3
    · obtain ⟨p, hp, e⟩ := List.mem_map.mp h3
      obtain ⟨i, hi⟩ := hname p hp
      rw [← h2, ← e, hi]
      exact configName_token i

/-- the configuration of a line -/
theorem config_found {ls : List (WGLine K)} {st : LineConfigs} {rows : List Text} (C : Configs showCx ls st rows)
    (hone : ∀ l ∈ ls, ∀ l' ∈ ls, ∀ n, l.name = some n → l'.name = some n → l = l') {l : WGLine K} (hl : l ∈ ls) (hc : Configured l) {name : Text}
    (hn : l.name = some name) {cs : List Char} (hcs : WritableMatrix l cs) :
    ∃ p ∈ st.configs, configOf st.names name = some p.2 ∧ DictOf showCx l cs p.1 := by
  obtain ⟨d, hd, hdo⟩ := dictOf_ok (showCx := showCx) hcs
  have h1 := C.set l hl hc name hn d hd fun l' hl' hc' hn' => by rw [← hone l hl l' hl' name hn hn']; exact hd
  obtain ⟨n, hf⟩ := C.found l hl hc d hd
  obtain ⟨p, hp, e, hsame⟩ := found_same hf
  refine ⟨p, hp, by rw [h1, hf, e], fun q => (hsame q).trans (hdo q)⟩

/-- C91, partial: if the phases of all lines without switches and fuses are A, B and C (and N) and their matrices have a number for each pair of
them, then the configurations are written as objects `line_configuration` with different names. Each of these lines is assigned the name of one,
and this one has the impedance of each pair of phases of the line, but no other. Each configuration is that of a line. Missing: negative numbers
of one part, which are not readable (`C91_sign_violated`), the unit of the numbers (`C91_units_violated`), the second file of a process
(`C91_again_violated`, `C91_clash_violated`), other matrices and phases (`C91_matrix_violated`, `C91_phase_violated`) and `write_wires`. -/
theorem C91_configurations_partial {ls : List (WGLine K)} (hi : Impedances showCx cpx) (h : ∀ l ∈ ls, Configured l → ∃ cs, WritableMatrix l cs)
    (hone : ∀ l ∈ ls, ∀ l' ∈ ls, ∀ n, l.name = some n → l'.name = some n → l = l') :
    ∃ st rows ds, writeConfigs showCx {} 1 ls = .ok (st, rows) ∧ Lays rows ds ∧ NoInclude rows ∧ (ds.map nameOf).Nodup ∧
      (∀ l ∈ ls, Configured l → ∀ name, l.name = some name → ∀ cs, WritableMatrix l cs →
        ∃ d ∈ ds, ∃ n, nameOf d = some n ∧ configOf st.names name = some n ∧ ConfigSays showCx cpx l cs d) ∧
      (∀ d ∈ ds, d.cls = "line_configuration".toList ∧ ∃ l ∈ ls, Configured l ∧ ∃ cs, WritableMatrix l cs ∧ ConfigSays showCx cpx l cs d) ∧
      ∀ name, (∀ l ∈ ls, Configured l → l.name ≠ some name) → configOf st.names name = none := by
  obtain ⟨st, rows, C⟩ := configs_written hi.token h
  refine ⟨st, rows, _, C.run, C.lays, C.plain, ?_, ?_, ?_, C.unset⟩
  · rw [List.map_map]
    have : st.configs.map (nameOf ∘ configDecl) = (st.configs.map (·.2)).map some := by
      rw [List.map_map]
      exact List.map_congr_left fun p hp => C.named p hp
    rw [this]
    exact C.once.map fun a b e => by injection e
  · intro l hl hc name hn cs hcs
    obtain ⟨p, hp, h1, h2⟩ := config_found C hone hl hc hn hcs
    exact ⟨_, List.mem_map.mpr ⟨p, hp, rfl⟩, p.2, C.named p hp, h1, says_of hi hcs.letters.letters h2⟩
  · intro d hd
    obtain ⟨p, hp, rfl⟩ := List.mem_map.mp hd
    obtain ⟨l, hl, hc, hd'⟩ := C.origin p hp
    obtain ⟨cs, hcs⟩ := h l hl hc
    obtain ⟨d', hd'', hdo⟩ := dictOf_ok (showCx := showCx) hcs
    rw [hd'] at hd''
    cases hd''
    exact ⟨rfl, l, hl, hc, cs, hcs, says_of hi hcs.letters.letters hdo⟩

/-- C91: lines with the same impedances share a configuration -/
theorem C91_shared {ls : List (WGLine K)} (htok : ∀ z, Token (stripParens (showCx z))) (h : ∀ l ∈ ls, Configured l → ∃ cs, WritableMatrix l cs)
    (hone : ∀ l ∈ ls, ∀ l' ∈ ls, ∀ n, l.name = some n → l'.name = some n → l = l') :
    ∃ st rows, writeConfigs showCx {} 1 ls = .ok (st, rows) ∧
      ∀ l ∈ ls, Configured l → ∀ name, l.name = some name → ∀ l' ∈ ls, Configured l' → ∀ name', l'.name = some name' →
        ∀ cs cs', WritableMatrix l cs → WritableMatrix l' cs' → SameImpedances l l' cs cs' →
        configOf st.names name = configOf st.names name' ∧ (configOf st.names name).isSome := by
  obtain ⟨st, rows, C⟩ := configs_written htok h
  refine ⟨st, rows, C.run, ?_⟩
  intro l hl hc name hn l' hl' hc' name' hn' cs cs' hcs hcs' hsame
  obtain ⟨d, hd, hdo⟩ := dictOf_ok (showCx := showCx) hcs
  obtain ⟨d', hd', hdo'⟩ := dictOf_ok (showCx := showCx) hcs'
  have h1 := C.set l hl hc name hn d hd fun x hx _ hxn => by rw [← hone l hl x hx name hn hxn]; exact hd
  have h2 := C.set l' hl' hc' name' hn' d' hd' fun x hx _ hxn => by rw [← hone l' hl' x hx name' hn' hxn]; exact hd'
  have h3 : findConfig st.configs d = findConfig st.configs d' := by
    refine find_same fun p => ?_
    rw [hdo p, hdo' p]
    constructor
    · rintro ⟨a, ha, b, hb, z, hz, e⟩
      exact ⟨a, (hsame.1 a).mp ha, b, (hsame.1 b).mp hb, z, (hsame.2 a b z).mp hz, e⟩
    · rintro ⟨a, ha, b, hb, z, hz, e⟩
      exact ⟨a, (hsame.1 a).mpr ha, b, (hsame.1 b).mpr hb, z, (hsame.2 a b z).mpr hz, e⟩
  obtain ⟨n, hf⟩ := C.found l hl hc d hd
  exact ⟨by rw [h1, h2, h3], by rw [h1, hf]; rfl⟩

/-- C91 violated: a negative number of one part, such as `-2j`, is written as `0+-2j`. If this cannot be read, the line loses its impedance. -/
theorem C91_sign_violated {ls : List (WGLine K)} (htok : ∀ z, Token (stripParens (showCx z))) (h : ∀ l ∈ ls, Configured l → ∃ cs, WritableMatrix l cs)
    (hone : ∀ l ∈ ls, ∀ l' ∈ ls, ∀ n, l.name = some n → l'.name = some n → l = l') (hcpx : ∀ t, cpx ('0' :: '+' :: '-' :: t) = none)
    {l : WGLine K} (hl : l ∈ ls) (hc : Configured l) {name : Text} (hn : l.name = some name) {cs : List Char} (hcs : WritableMatrix l cs) {a b : Char}
    (ha : a ∈ cs) (hb : b ∈ cs) {z : Cx K} (hz : Impedance l cs a b z) (hneg : NegativePart (stripParens (showCx z))) :
    ∃ st rows ds, writeConfigs showCx {} 1 ls = .ok (st, rows) ∧ Lays rows ds ∧
      ∃ d ∈ ds, nameOf d = configOf st.names name ∧ (nameOf d).isSome ∧ attrOf d (zKey a b) = some ('0' :: '+' :: stripParens (showCx z)) ∧
        ∀ w, ¬Value cpx d (zKey a b) w := by
  obtain ⟨st, rows, C⟩ := configs_written htok h
  obtain ⟨p, hp, h1, h2⟩ := config_found C hone hl hc hn hcs
  have hv : attrOf (configDecl p) (zKey a b) = some ('0' :: '+' :: stripParens (showCx z)) := by
    rw [decl_value hcs.letters.letters h2 ha hb hz]
    unfold zText
    rw [withReal_pos hneg.1]
  refine ⟨st, rows, _, C.run, C.lays, configDecl p, List.mem_map.mpr ⟨p, hp, rfl⟩, by rw [C.named p hp, h1], by rw [C.named p hp]; rfl, hv, ?_⟩
  rintro w ⟨t, ht, hw⟩
  rw [hv] at ht
  cases ht
  have hh := hneg.2
  cases hs : stripParens (showCx z) with
  | nil => rw [hs] at hh; cases hh
  | cons c t =>
    rw [hs] at hh hw
    cases hh
    rw [hcpx] at hw
    cases hw

/-- C91 violated: the numbers are those of the matrix, in ohm per meter. GridLAB-D, and the reader of ditto, take them as ohm per mile. -/
theorem C91_units_violated [Field K] [LinearOrder K] [IsStrictOrderedRing K] {ls : List (WGLine K)} (hi : Impedances showCx cpx)
    (h : ∀ l ∈ ls, Configured l → ∃ cs, WritableMatrix l cs) (hone : ∀ l ∈ ls, ∀ l' ∈ ls, ∀ n, l.name = some n → l'.name = some n → l = l')
    {l : WGLine K} (hl : l ∈ ls) (hc : Configured l) {name : Text} (hn : l.name = some name) {cs : List Char} (hcs : WritableMatrix l cs) {a b : Char}
    (ha : a ∈ cs) (hb : b ∈ cs) {z : Cx K} (hz : Impedance l cs a b z) (hre : z.re ≠ 0) (hneg : ¬NegativePart (stripParens (showCx z))) :
    ∃ st rows ds, writeConfigs showCx {} 1 ls = .ok (st, rows) ∧ Lays rows ds ∧
      ∃ d ∈ ds, nameOf d = configOf st.names name ∧ (nameOf d).isSome ∧
        ∃ w, Value cpx d (zKey a b) w ∧ w.re / (160934 / 100) ≠ z.re := by
  obtain ⟨st, rows, C⟩ := configs_written hi.token h
  obtain ⟨p, hp, h1, h2⟩ := config_found C hone hl hc hn hcs
  refine ⟨st, rows, _, C.run, C.lays, configDecl p, List.mem_map.mpr ⟨p, hp, rfl⟩, by rw [C.named p hp, h1], by rw [C.named p hp]; rfl, z,
    (says_of hi hcs.letters.letters h2).values a ha b hb z hz hneg, ?_⟩
  intro e
  have h2 : (160934 / 100 : K) ≠ 0 := by norm_num
  rw [div_eq_iff h2] at e
  have h3 : z.re * (160934 / 100 - 1) = 0 := by rw [mul_sub, ← e, mul_one, sub_self]
  rcases mul_eq_zero.mp h3 with h3 | h3
  · exact hre h3
  · norm_num at h3

/-- C91 violated: a matrix without a number for a pair of phases, such as the empty matrix a line has at first, ends the writing -/
theorem C91_matrix_violated {pre post : List (WGLine K)} {l : WGLine K} (st : LineConfigs) (count : Nat)
    (h : ∀ l ∈ pre, Configured l → ∃ cs, WritableMatrix l cs) (hc : Configured l) {cs : List Char} (hcs : LineLetters l cs)
    {m : List (List (Cx K))} (hm : l.matrix = some m) {a b : Char} (ha : a ∈ cs) (hb : b ∈ cs) (hz : ¬∃ z, Impedance l cs a b z) :
    writeConfigs showCx st count (pre ++ l :: post) = .error .indexError := by
  refine loop_error (fun x hx hxc => ?_) hc (dict_small hcs hm ha hb hz)
  obtain ⟨cs, hcs⟩ := h x hx hxc
  obtain ⟨d, hd, -⟩ := dictOf_ok (showCx := showCx) hcs
  exact ⟨d, hd⟩

/-- C91 violated: a phase other than A, B, C, 1, 2 and N, such as S1, ends the writing -/
theorem C91_phase_violated {pre post : List (WGLine K)} {l : WGLine K} (st : LineConfigs) (count : Nat)
    (h : ∀ l ∈ pre, Configured l → ∃ cs, WritableMatrix l cs) (hc : Configured l) {m : List (List (Cx K))} (hm : l.matrix = some m)
    {w : WWire} (hw : w ∈ l.wires) {p : Text} (hp : w.phase = some p) (hk : p ∉ [['A'], ['B'], ['C'], ['1'], ['2'], ['N']]) :
    ∃ e, (e = .keyError ∨ e = .indexError) ∧ writeConfigs showCx st count (pre ++ l :: post) = .error e := by
  obtain ⟨e, he, hd⟩ := dict_phase (showCx := showCx) hm hw hp hk
  refine ⟨e, he, loop_error (fun x hx hxc => ?_) hc hd⟩
  obtain ⟨cs, hcs⟩ := h x hx hxc
  obtain ⟨d, hd, -⟩ := dictOf_ok (showCx := showCx) hcs
  exact ⟨d, hd⟩

/-- C91 violated: the dictionaries of configurations belong to the class and are kept for the next file. If the same lines, or some of them, are
written again, then no configuration is written, while the lines still get the names of configurations. -/
theorem C91_again_violated {ls ls' : List (WGLine K)} (htok : ∀ z, Token (stripParens (showCx z)))
    (h : ∀ l ∈ ls, Configured l → ∃ cs, WritableMatrix l cs) (hsub : ∀ l ∈ ls', l ∈ ls) :
    ∃ st rows st', writeConfigs showCx {} 1 ls = .ok (st, rows) ∧ writeConfigs showCx st 1 ls' = .ok (st', []) ∧
      ∀ l ∈ ls', Configured l → ∀ name, l.name = some name → ∃ n, configOf st'.names name = some n := by
  obtain ⟨st, rows, C⟩ := configs_written htok h
  obtain ⟨names, h1, h2, -⟩ := loop_known (showCx := showCx) (ls := ls') (st := st) (count := 1) fun l hl hc => by
    obtain ⟨cs, hcs⟩ := h l (hsub l hl) hc
    obtain ⟨d, hd, -⟩ := dictOf_ok (showCx := showCx) hcs
    obtain ⟨n, hn⟩ := C.found l (hsub l hl) hc d hd
    exact ⟨d, n, hd, hn⟩
  exact ⟨st, rows, _, C.run, h1, h2⟩

/-- C91 violated: if a line is written to a file, and after it another line and then the same one to a second file, then the only configuration
of the second file is that of the other line, and both lines refer to it -/
theorem C91_clash_violated (hi : Impedances showCx cpx) {l l' : WGLine K} (hc : Configured l) (hc' : Configured l') {name name' : Text}
    (hn : l.name = some name) (hn' : l'.name = some name') (hne : name ≠ name') {cs cs' : List Char} (hcs : WritableMatrix l cs)
    (hcs' : WritableMatrix l' cs') {a b : Char} (ha : a ∈ cs) (hb : b ∈ cs) (ha' : a ∈ cs') (hb' : b ∈ cs') {z z' : Cx K}
    (hz : Impedance l cs a b z) (hz' : Impedance l' cs' a b z') (hneg : ¬NegativePart (stripParens (showCx z)))
    (hneg' : ¬NegativePart (stripParens (showCx z'))) (hd : z ≠ z') :
    ∃ st rows st' rows' d n, writeConfigs showCx {} 1 [l] = .ok (st, rows) ∧ writeConfigs showCx st 1 [l', l] = .ok (st', rows') ∧
      Lays rows' [d] ∧ nameOf d = some n ∧ configOf st'.names name = some n ∧ configOf st'.names name' = some n ∧
      Value cpx d (zKey a b) z' ∧ ¬Value cpx d (zKey a b) z := by
  obtain ⟨d, hd1, hdo⟩ := dictOf_ok (showCx := showCx) hcs
  obtain ⟨d', hd1', hdo'⟩ := dictOf_ok (showCx := showCx) hcs'
  have hread : ∀ z, ¬NegativePart (stripParens (showCx z)) → cpx (zText showCx z) = some z := by
    intro z hneg
    unfold zText
    by_cases ho : OnePart (stripParens (showCx z))
    · rw [withReal_pos ho]
      exact hi.zero z ho hneg
    · rw [withReal_neg ho]
      exact hi.inverse z
  have hdiff : sameItems d d' = false := by
    cases hs : sameItems d d' with
    | false => rfl
    | true =>
      exfalso
      have h1 := ((sameItems_iff.mp hs) _).mp ((hdo _).mpr ⟨a, ha, b, hb, z, hz, rfl⟩)
      obtain ⟨x, hx, y, hy, w, hw, e⟩ := (hdo' _).mp h1
      injection e with e1 e2
      obtain ⟨rfl, rfl⟩ := zKey_inj (hcs'.letters.letters a ha') (hcs'.letters.letters b hb') (hcs'.letters.letters x hx) (hcs'.letters.letters y hy) e1
      rw [impedance_unique hw hz'] at e2
      have h2 := hread z hneg
      rw [e2, hread z' hneg'] at h2
      injection h2 with h2
      exact hd h2.symm
  have hrun : writeConfigs showCx {} 1 [l] = .ok (⟨[(d, configName 1)], [(l.name, configName 1)]⟩, configRows d (configName 1) ++ []) := by
    rw [writeConfigs, if_neg (by rw [noConfig_iff.mpr hc]; decide), hd1]
    rfl
  have hself : findConfig [(d, configName 1), (d', configName 1)] d = some (configName 1) := by
    have : sameItems d d = true := sameItems_iff.mpr fun p => Iff.rfl
    unfold findConfig
    rw [List.find?_cons_of_pos (by simpa using this)]
    rfl
  have hnone : findConfig [(d, configName 1)] d' = none := by
    unfold findConfig
    rw [List.find?_cons_of_neg (by simpa using hdiff)]
    rfl
  have hrun' : writeConfigs showCx ⟨[(d, configName 1)], [(l.name, configName 1)]⟩ 1 [l', l] =
      .ok (⟨[(d, configName 1), (d', configName 1)], [(l.name, configName 1), (l'.name, configName 1), (l.name, configName 1)]⟩,
        configRows d' (configName 1) ++ []) := by
    rw [writeConfigs, if_neg (by rw [noConfig_iff.mpr hc']; decide), hd1']
    dsimp only
    rw [hnone]
    dsimp only
    rw [writeConfigs, if_neg (by rw [noConfig_iff.mpr hc]; decide), hd1]
    dsimp only
    rw [List.singleton_append, hself]
    rfl
  have hlay := entries_lay (cls := "line_configuration".toList) (by decide) (by decide)
    (entries := fun p : List (Text × Text) × Text => setEntry "name".toList p.2 p.1) (ws := [(d', configName 1)]) (by
      intro p hp q hq
      obtain rfl := List.mem_singleton.mp hp
      have hq : q ∈ (configDecl (d', configName 1)).statements := hq
      rw [decl_statements hdo'] at hq
      rcases List.mem_append.mp hq with hq | hq
      · obtain ⟨x, hx, y, hy, w, -, rfl⟩ := (hdo' q).mp hq
        obtain ⟨h1, h2⟩ := zKey_word (hcs'.letters.letters x hx) (hcs'.letters.letters y hy)
        exact ⟨h1, h2, withReal_token (hi.token w)⟩
      · rw [List.mem_singleton.mp hq]
        exact ⟨word_lit (k := "name".toList) (by decide), plain_lit (k := "name".toList) (by decide), configName_token 1⟩)
  have hval := (says_of (p := (d', configName 1)) hi hcs'.letters.letters hdo').values a ha' b hb' z' hz' hneg'
  refine ⟨_, _, _, _, configDecl (d', configName 1), configName 1, hrun, hrun', hlay.1, config_decl_name hdo', ?_, ?_, hval, ?_⟩
  · show configOf ((l.name, configName 1) :: _) name = _
    rw [configOf_cons, if_pos hn]
  · show configOf ((l.name, configName 1) :: (l'.name, configName 1) :: _) name' = _
    rw [configOf_cons, if_neg (by rw [hn]; intro e; injection e with e; exact hne e), configOf_cons, if_pos hn']
  · intro hw
    exact hd (value_unique hw hval)

/-! ### the lines -/

section lines
variable [Field K] {shown : K → Text} {flt : Text → Option K}

/-- the attributes of a line with their values -/
def linePairs (shown : K → Text) (names : List (Option Text × Text)) (l : WGLine K) : List (Text × Option Text) :=
  [("length".toList, if lineClass l = "fuse".toList ∨ lineClass l = "switch".toList then none else l.length.map fun x => shown (x * (328084 / 100000))),
    ("configuration".toList, if lineClass l = "fuse".toList ∨ lineClass l = "switch".toList then none else l.name.bind (configOf names)),
    ("name".toList, l.name.map ('n' :: ·)), ("from".toList, l.source.map ('n' :: ·)), ("to".toList, l.target.map ('n' :: ·)),
    ("phases".toList, if (l.wires.filterMap (·.phase)).flatten = [] then none else some (l.wires.filterMap (·.phase)).flatten)]

theorem line_flat (names : List (Option Text × Text)) (l : WGLine K) : lineEntries shown names l = flatEntries (linePairs shown names l) := by
  have h1 : capPhaseEntry (l.wires.filterMap (·.phase)).flatten =
      flatEntries [("phases".toList, if (l.wires.filterMap (·.phase)).flatten = [] then none else some (l.wires.filterMap (·.phase)).flatten)] := by
    unfold capPhaseEntry
    split <;> rfl
  unfold lineEntries linePairs lineSizes
  rw [h1]
  split <;> unfold flatEntries <;> simp only [List.flatMap_cons, List.flatMap_nil, List.append_nil, List.append_assoc, List.nil_append] <;> rfl

omit [Field K] in
theorem phase_text (ws : List WWire) : (ws.filterMap (·.phase)).flatten = ws.flatMap fun w => w.phase.toList.flatten := by
  induction ws with
  | nil => rfl
  | cons w ws ih =>
    rw [List.flatMap_cons, ← ih]
    cases h : w.phase with
    | none => rw [List.filterMap_cons_none h]; rfl
    | some p => rw [List.filterMap_cons_some h]; simp

/-- the object of a line -/
def lineDecl (shown : K → Text) (names : List (Option Text × Text)) (l : WGLine K) : Decl := ⟨lineClass l, none, lineEntries shown names l⟩

omit [Field K] in
theorem line_class (l : WGLine K) : ClassOf l (lineClass l) := by
  unfold lineClass
  split
  · exact .underground ‹_›
  split
  · exact .fuse ‹_› ‹_›
  split
  · exact .switch ‹_› ‹_› ‹_›
  · exact .overhead ‹_› ⟨‹_›, ‹_›⟩

omit [Field K] in
theorem class_listed (l : WGLine K) : lineClass l ∈ ["underground_line".toList, "fuse".toList, "switch".toList, "overhead_line".toList] := by
  unfold lineClass
  split
  · simp
  split
  · simp
  split <;> simp

theorem line_nodup (names : List (Option Text × Text)) (l : WGLine K) : ((linePairs shown names l).map (·.1)).Nodup := by
  show ["length".toList, "configuration".toList, "name".toList, "from".toList, "to".toList, "phases".toList].Nodup
  decide

theorem line_value {names : List (Option Text × Text)} {l : WGLine K} {k : Text} {o : Option Text} (h : (k, o) ∈ linePairs shown names l) :
    lastValue (lineDecl shown names l).statements k = o := by
  show lastValue (lineEntries shown names l) k = o
  rw [line_flat]
  exact flat_value (line_nodup names l) h

theorem line_name {names : List (Option Text × Text)} {l : WGLine K} {name : Text} (h : l.name = some name) :
    nameOf (lineDecl shown names l) = some ('n' :: name) := by
  unfold nameOf
  rw [line_value (o := some ('n' :: name)) (by unfold linePairs; rw [h]; exact .tail _ (.tail _ (.head _)))]

theorem line_says (hs : Numbers shown flt) {names : List (Option Text × Text)} {l : WGLine K} {name : Text} (h : WritableLine l name) :
    LineWritten flt (configOf names) l name (lineDecl shown names l) := by
  refine ⟨line_class l, line_name h.named, ?_, ?_, ?_, ?_, ?_⟩
  · unfold attrOf
    rw [if_neg (by decide)]
    exact line_value (.tail _ (.tail _ (.tail _ (.head _))))
  · unfold attrOf
    rw [if_neg (by decide)]
    exact line_value (.tail _ (.tail _ (.tail _ (.tail _ (.head _)))))
  · unfold attrOf
    rw [if_neg (by decide), ← phase_text]
    exact line_value (.tail _ (.tail _ (.tail _ (.tail _ (.tail _ (.head _))))))
  · intro hc
    have hc : ¬(lineClass l = "fuse".toList ∨ lineClass l = "switch".toList) := fun hc' => hc (by
      rcases hc' with e | e <;> show lineClass l ∈ _ <;> rw [e] <;> decide)
    have hv := line_value (shown := shown) (names := names) (l := l) (k := "length".toList)
      (o := l.length.map fun x => shown (x * (328084 / 100000))) (by unfold linePairs; rw [if_neg hc]; exact .head _)
    cases hl : l.length with
    | none =>
      show attrOf _ _ = none
      unfold attrOf
      rw [if_neg (by decide), hv, hl]
      rfl
    | some x =>
      refine ⟨shown (x * (328084 / 100000)), ?_, hs.inverse _⟩
      unfold attrOf
      rw [if_neg (by decide), hv, hl]
      rfl
  · intro hc
    have hc : ¬(lineClass l = "fuse".toList ∨ lineClass l = "switch".toList) := fun hc' => hc (by
      rcases hc' with e | e <;> show lineClass l ∈ _ <;> rw [e] <;> decide)
    unfold attrOf
    rw [if_neg (by decide)]
    refine line_value ?_
    unfold linePairs
    rw [if_neg hc, if_neg hc, h.named]
    exact .tail _ (.head _)

theorem line_tokens (hs : ∀ x, Token (shown x)) {names : List (Option Text × Text)} (hn : ∀ n t, configOf names n = some t → Token t) {l : WGLine K} {name : Text}
    (h : WritableLine l name) : ∀ p ∈ lineEntries shown names l, Word p.1 ∧ Plain p.1 ∧ Token p.2 := by
  rintro ⟨k, v⟩ hp
  rw [line_flat] at hp
  have hp := mem_flat.mp hp
  have hk : k ∈ ["length".toList, "configuration".toList, "name".toList, "from".toList, "to".toList, "phases".toList] := by
    have : k ∈ (linePairs shown names l).map (·.1) := List.mem_map.mpr ⟨_, hp, rfl⟩
    exact this
  refine ⟨?_, ?_, ?_⟩
  · exact (show ∀ k ∈ ["length".toList, "configuration".toList, "name".toList, "from".toList, "to".toList, "phases".toList],
      k ≠ [] ∧ ∀ c ∈ k, c.isWhitespace = false by decide) k hk
  · exact (show ∀ k ∈ ["length".toList, "configuration".toList, "name".toList, "from".toList, "to".toList, "phases".toList],
      k ≠ "object".toList ∧ k ≠ "schedule".toList ∧ ¬['/', '/'] <+: k by decide) k hk
  · unfold linePairs at hp
    simp only [List.mem_cons, List.not_mem_nil, or_false, Prod.mk.injEq] at hp
    rcases hp with ⟨-, e⟩ | ⟨-, e⟩ | ⟨-, e⟩ | ⟨-, e⟩ | ⟨-, e⟩ | ⟨-, e⟩
    · split at e
      · cases e
      · obtain ⟨x, -, rfl⟩ := Option.map_eq_some_iff.mp e.symm
        exact hs _
    · split at e
      · cases e
      · rw [h.named] at e
        exact hn name v e.symm
    · rw [h.named] at e
      cases e
      exact h.token
    · obtain ⟨x, hx, rfl⟩ := Option.map_eq_some_iff.mp e.symm
      exact h.source x hx
    · obtain ⟨x, hx, rfl⟩ := Option.map_eq_some_iff.mp e.symm
      exact h.target x hx
    · split at e
      · cases e
      · cases e
        rw [phase_text]
        exact h.phases

theorem brace_header {cls : Text} (h : cls ∈ ["underground_line".toList, "fuse".toList, "switch".toList, "overhead_line".toList]) :
    ':' ∉ cls ∧ words ("object ".toList ++ cls ++ ['{']) = ["object".toList, cls ++ ['{']] :=
  (show ∀ cls ∈ ["underground_line".toList, "fuse".toList, "switch".toList, "overhead_line".toList],
    ':' ∉ cls ∧ words ("object ".toList ++ cls ++ ['{']) = ["object".toList, cls ++ ['{']] by decide +kernel) cls h

theorem brace_plain (cls : Text) : ¬"#include".toList <+: "object ".toList ++ cls ++ ['{'] := by
  rintro ⟨t, ht⟩
  rw [show "object ".toList = 'o' :: "bject ".toList by decide, show "#include".toList = '#' :: "include".toList by decide] at ht
  injection ht with ht _
  exact absurd ht (by decide)

theorem line_lays (hs : ∀ x, Token (shown x)) {names : List (Option Text × Text)} (hn : ∀ n t, configOf names n = some t → Token t) {ls : List (WGLine K)}
    (h : ∀ l ∈ ls, ∃ name, WritableLine l name) :
    BraceLays (writeLineRows shown names ls) (ls.map (lineDecl shown names)) ∧ NoInclude (writeLineRows shown names ls) := by
  unfold writeLineRows
  induction ls with
  | nil => exact ⟨.nil, (fun _ h => by cases h)⟩
  | cons l ls ih =>
    obtain ⟨a, b⟩ := ih fun x hx => h x (List.mem_cons_of_mem _ hx)
    obtain ⟨name, hw⟩ := h l List.mem_cons_self
    have hb := entries_body (line_tokens hs hn hw)
    obtain ⟨h1, h2⟩ := brace_header (class_listed l)
    have hblock : BraceBlock (("object ".toList ++ lineClass l ++ ['{']) :: (((lineEntries shown names l).map fun p => entryRow four p.1 p.2) ++ ["};".toList]))
        (lineDecl shown names l) := ⟨_, _, _, rfl, ⟨h1, rfl, splits_of h2⟩, hb.1, Or.inr (splits_of rfl)⟩
    rw [List.flatMap_cons, List.map_cons]
    refine ⟨?_, noInclude_append ?_ b⟩
    · have : lineRows shown names l = (("object ".toList ++ lineClass l ++ ['{']) ::
          (((lineEntries shown names l).map fun p => entryRow four p.1 p.2) ++ ["};".toList])) ++ [[]] := by
        unfold lineRows
        simp only [List.cons_append, List.append_assoc]
        rfl
      rw [this, List.append_assoc]
      exact .block hblock (.blank (Or.inl (splits_of rfl)) a)
    · unfold lineRows
      have h3 : NoInclude [("object ".toList ++ lineClass l ++ ['{'])] := by
        intro row hr
        rw [List.mem_singleton.mp hr]
        exact brace_plain _
      have h4 : NoInclude ["};".toList, []] := by unfold NoInclude; decide
      exact noInclude_append (noInclude_append h3 (indented_plain hb.2)) h4

/-- C92, partial: each line is written as an object of its class, with name, buses and phases, and, unless it is a fuse or switch, with its length
in feet and the name of the configuration it was assigned. The brace follows the class directly. Missing: that ditto can read this
(`C92_unreadable_violated`), the position of switches (`C92_open_violated`), switches of underground cables (`C92_underground_violated`), and lines
without name or with blanks in names. -/
theorem C92_written_partial (hs : Numbers shown flt) {names : List (Option Text × Text)} (hn : ∀ n t, configOf names n = some t → Token t)
    {ls : List (WGLine K)} {ns : List Text} (h : List.Forall₂ WritableLine ls ns) :
    ∃ ds, BraceLays (writeLineRows shown names ls) ds ∧ NoInclude (writeLineRows shown names ls) ∧
      List.Forall₂ (fun (p : WGLine K × Text) d => LineWritten flt (configOf names) p.1 p.2 d) (ls.zip ns) ds := by
  obtain ⟨h1, h2⟩ := line_lays (shown := shown) hs.token hn (ls := ls) fun l hl => by
    obtain ⟨n, -, hw⟩ := found_right h hl
    exact ⟨n, hw⟩
  refine ⟨_, h1, h2, ?_⟩
  clear h1 h2
  induction h with
  | nil => exact .nil
  | cons hw _ ih => exact .cons (line_says hs hw) ih

/-- C92, partial: in the first file of a process each line that is neither switch nor fuse refers to a configuration of the file, which has the
impedances of the line -/
theorem C92_file_partial (hs : Numbers shown flt) (hi : Impedances showCx cpx) {ls : List (WGLine K)} {ns : List Text} (h : List.Forall₂ WritableLine ls ns)
    (hnd : ns.Nodup) (hm : ∀ l ∈ ls, Configured l → ∃ cs, WritableMatrix l cs) :
    ∃ st rows cds ds, writeConfigs showCx {} 1 ls = .ok (st, rows) ∧ Lays rows cds ∧ NoInclude rows ∧ BraceLays (writeLineRows shown st.names ls) ds ∧
      List.Forall₂ (fun (p : WGLine K × Text) d => LineWritten flt (configOf st.names) p.1 p.2 d) (ls.zip ns) ds ∧
      List.Forall₂ (fun l d => Configured l → ∀ cs, WritableMatrix l cs →
        ∃ c ∈ cds, nameOf c = attrOf d "configuration".toList ∧ (nameOf c).isSome ∧ ConfigSays showCx cpx l cs c) ls ds := by
  obtain ⟨st, rows, C⟩ := configs_written hi.token hm
  have hone : ∀ l ∈ ls, ∀ l' ∈ ls, ∀ n, l.name = some n → l'.name = some n → l = l' := by
    intro l hl l' hl' n hn hn'
    obtain ⟨i, hi, rfl⟩ := List.mem_iff_getElem.mp hl
    obtain ⟨j, hj, rfl⟩ := List.mem_iff_getElem.mp hl'
    have hlen := h.length_eq
    have h1 := (List.forall₂_iff_get.mp h).2 i hi (by omega)
    have h2 := (List.forall₂_iff_get.mp h).2 j hj (by omega)
    have e1 := h1.named
    have e2 := h2.named
    simp only [List.get_eq_getElem] at e1 e2
    rw [hn] at e1
    rw [hn'] at e2
    injection e1 with e1
    injection e2 with e2
    have : i = j := (List.Nodup.getElem_inj_iff hnd).mp (e1.symm.trans e2)
    subst this
    rfl
  obtain ⟨h1, -⟩ := line_lays (shown := shown) hs.token C.tokens (ls := ls) fun l hl => by
    obtain ⟨n, -, hw⟩ := found_right h hl
    exact ⟨n, hw⟩
  refine ⟨st, rows, _, _, C.run, C.lays, C.plain, h1, ?_, ?_⟩
  · clear h1 hone C hm hnd
    induction h with
    | nil => exact .nil
    | cons hw _ ih => exact .cons (line_says hs hw) ih
  · rw [List.forall₂_map_right_iff, List.forall₂_same]
    intro l hl hc cs hcs
    obtain ⟨n, -, hw⟩ := found_right h hl
    obtain ⟨p, hp, h2, h3⟩ := config_found C hone hl hc hw.named hcs
    refine ⟨configDecl p, List.mem_map.mpr ⟨p, hp, rfl⟩, ?_, by rw [C.named p hp]; rfl, says_of hi hcs.letters.letters h3⟩
    rw [(line_says hs hw).configuration, C.named p hp, h2]
    show lineClass l ∉ _
    unfold lineClass
    rw [if_neg hc.2, if_neg hc.1]
    split <;> decide

/-- C92 violated: a file with a line cannot be read by ditto, since the class of the object is taken with the brace -/
theorem C92_unreadable_violated {schema : Schema} (hs : ∀ x, Token (shown x)) {names : List (Option Text × Text)}
    (hn : ∀ n t, configOf names n = some t → Token t) {ls : List (WGLine K)} (h : ∀ l ∈ ls, ∃ name, WritableLine l name) (hne : ls ≠ [])
    (hschema : ∀ cls, '{' ∈ cls → schema cls = none) {pre post : List Text} {before : List Decl} (hpre : Lays pre before)
    (hg : ∀ d ∈ before, Good schema d) (hi : NoInclude pre) (hi' : NoInclude post) (due : List Text → Py Bool) (files : Text → Option (List Text)) :
    readGlm schema due files [] (pre ++ writeLineRows shown names ls ++ post) = .error .attributeError := by
  obtain ⟨-, hp⟩ := line_lays hs hn h
  cases ls with
  | nil => exact absurd rfl hne
  | cons l ls =>
    obtain ⟨-, h2⟩ := brace_header (class_listed l)
    have hcat : pre ++ writeLineRows shown names (l :: ls) ++ post = pre ++ [("object ".toList ++ lineClass l ++ ['{'])] ++
        (((lineEntries shown names l).map fun p => entryRow four p.1 p.2) ++ ["};".toList, []] ++ writeLineRows shown names ls ++ post) := by
      unfold writeLineRows lineRows
      simp only [List.flatMap_cons, List.cons_append, List.append_assoc, List.nil_append]
    have hni := noInclude_append (noInclude_append hi hp) hi'
    rw [hcat] at hni ⊢
    have hclass := class_listed l
    refine C71_class_violated due files hpre hg [] hni (splits_of h2) ?_ ?_ (hschema _ (by simp))
    · exact (show ∀ cls ∈ ["underground_line".toList, "fuse".toList, "switch".toList, "overhead_line".toList], ':' ∉ cls ++ ['{'] by decide) _ hclass
    · exact (show ∀ cls ∈ ["underground_line".toList, "fuse".toList, "switch".toList, "overhead_line".toList], cls ++ ['{'] ∉ leftOut by decide) _ hclass

/-- C92 violated: whether the wires of a switch or fuse are open is not written -/
theorem C92_open_violated {names : List (Option Text × Text)} (ls : List (WGLine K)) (o : WGLine K → WWire → Option Bool) :
    writeLineRows shown names (ls.map fun l => { l with wires := l.wires.map fun w => { w with isOpen := o l w } }) = writeLineRows shown names ls := by
  unfold writeLineRows
  rw [List.flatMap_map]
  congr 1
  funext l
  unfold lineRows lineEntries lineSizes lineClass
  dsimp only
  rw [List.filterMap_map]
  rfl

/-- C92 violated: a switch or fuse of an underground line is written as an underground line, and without configuration -/
theorem C92_underground_violated (hs : Numbers shown flt) (hi : Impedances showCx cpx) {ls : List (WGLine K)}
    (hm : ∀ l ∈ ls, Configured l → ∃ cs, WritableMatrix l cs) (hone : ∀ l ∈ ls, ∀ l' ∈ ls, ∀ n, l.name = some n → l'.name = some n → l = l')
    {l : WGLine K} (hl : l ∈ ls) {name : Text} (hw : WritableLine l name) (hc : ¬Configured l) (hu : l.lineType = some "underground".toList) :
    ∃ st rows d, writeConfigs showCx {} 1 ls = .ok (st, rows) ∧ LineWritten flt (configOf st.names) l name d ∧
      BraceLays (writeLineRows shown st.names [l]) [d] ∧ d.cls = "underground_line".toList ∧ attrOf d "configuration".toList = none := by
  obtain ⟨st, rows, C⟩ := configs_written hi.token hm
  have hcls : lineClass l = "underground_line".toList := by unfold lineClass; rw [if_pos hu]
  refine ⟨st, rows, lineDecl shown st.names l, C.run, line_says hs hw, (line_lays hs.token C.tokens ?_).1, hcls, ?_⟩
  · intro x hx
    rw [List.mem_singleton.mp hx]
    exact ⟨name, hw⟩
  · rw [(line_says hs hw).configuration (by show lineClass l ∉ _; rw [hcls]; decide)]
    refine C.unset name fun l' hl' hc' hn' => hc ?_
    rw [hone l hl l' hl' name hw.named hn']
    exact hc'

end lines

end numbers

/-! ### examples -/

/-- reads what `exCxStrokes` prints, also after `0+` -/
def exZ : Text → Option (Cx ℚ)
  | '0' :: '+' :: t => exCxUnstroke t
  | t => exCxUnstroke t

theorem exZ_impedances : Impedances exCxStrokes exZ := by
  have hz : ∀ n, exZ (List.replicate n '1') = exCxUnstroke (List.replicate n '1') := by
    intro n
    cases n with
    | zero => rfl
    | succ n => rfl
  refine ⟨fun z => ?_, fun z _ _ => ?_, fun z => ?_⟩
  · unfold exCxStrokes
    rw [strip_strokes, hz]
    unfold exCxUnstroke
    rw [List.length_replicate, Encodable.encodek]
    rfl
  · unfold exCxStrokes
    rw [strip_strokes]
    show exCxUnstroke _ = _
    unfold exCxUnstroke
    rw [List.length_replicate, Encodable.encodek]
    rfl
  · unfold exCxStrokes
    rw [strip_strokes]
    exact strokes_token _

theorem ex_not_negative (z : Cx ℚ) : ¬NegativePart (stripParens (exCxStrokes z)) := by
  rintro ⟨-, h⟩
  unfold exCxStrokes at h
  rw [strip_strokes] at h
  cases hn : Encodable.encode (z.re, z.im) with
  | zero => rw [hn] at h; cases h
  | succ n =>
    rw [hn, List.replicate_succ, List.head?_cons] at h
    revert h
    decide

/-- a line with two phases and neutral, whose matrix has only its phases -/
def exLineAB : WGLine ℚ :=
  ⟨some "1".toList, none, none, some "overhead".toList, some 10, some "a".toList, some "b".toList,
    [⟨some ['B'], none⟩, ⟨some ['A'], none⟩, ⟨some ['N'], none⟩], some [[⟨1, 2⟩, ⟨0, 3⟩], [⟨0, 3⟩, ⟨1, 4⟩]]⟩

/-- an underground line with phases A and C and a matrix of all phases -/
def exLineAC : WGLine ℚ :=
  ⟨some "2".toList, none, some false, some "underground".toList, none, some "b".toList, some "c".toList,
    [⟨some ['A'], none⟩, ⟨some ['C'], none⟩], some [[⟨5, 2⟩, ⟨0, 0⟩, ⟨7, 7⟩], [], [⟨7, 7⟩, ⟨0, 0⟩, ⟨8, 4⟩]]⟩

/-- a switch of an underground line -/
def exLineSwitch : WGLine ℚ :=
  ⟨some "3".toList, some true, none, some "underground".toList, none, some "c".toList, some "d".toList, [⟨some ['A'], some true⟩], some []⟩

/-- a line with the impedances of the first, in another order of phases -/
def exLineBA : WGLine ℚ :=
  ⟨some "4".toList, none, none, none, some 3, some "b".toList, some "e".toList, [⟨some ['A'], none⟩, ⟨some ['B'], none⟩],
    some [[⟨1, 2⟩, ⟨0, 3⟩], [⟨0, 3⟩, ⟨1, 4⟩]]⟩

theorem ex_matrixAB : WritableMatrix exLineAB ['B', 'A'] := by
  refine ⟨⟨rfl, by decide, by decide⟩, ?_⟩
  intro a ha b hb
  simp only [List.mem_cons, List.not_mem_nil, or_false] at ha hb
  rcases ha with rfl | rfl <;> rcases hb with rfl | rfl <;> exact ⟨_, _, _, rfl, rfl, rfl⟩

theorem ex_matrixAC : WritableMatrix exLineAC ['A', 'C'] := by
  refine ⟨⟨rfl, by decide, by decide⟩, ?_⟩
  intro a ha b hb
  simp only [List.mem_cons, List.not_mem_nil, or_false] at ha hb
  rcases ha with rfl | rfl <;> rcases hb with rfl | rfl <;> exact ⟨_, _, _, rfl, rfl, rfl⟩

theorem ex_matrixBA : WritableMatrix exLineBA ['A', 'B'] := by
  refine ⟨⟨rfl, by decide, by decide⟩, ?_⟩
  intro a ha b hb
  simp only [List.mem_cons, List.not_mem_nil, or_false] at ha hb
  rcases ha with rfl | rfl <;> rcases hb with rfl | rfl <;> exact ⟨_, _, _, rfl, rfl, rfl⟩

/-- all four lines -/
def exGLines : List (WGLine ℚ) := [exLineAB, exLineAC, exLineSwitch, exLineBA]

theorem ex_matrices : ∀ l ∈ exGLines, Configured l → ∃ cs, WritableMatrix l cs := by
  intro l hl hc
  simp only [exGLines, List.mem_cons, List.not_mem_nil, or_false] at hl
  rcases hl with rfl | rfl | rfl | rfl
  · exact ⟨_, ex_matrixAB⟩
  · exact ⟨_, ex_matrixAC⟩
  · exact absurd rfl hc.1
  · exact ⟨_, ex_matrixBA⟩

theorem ex_once : ∀ l ∈ exGLines, ∀ l' ∈ exGLines, ∀ n, l.name = some n → l'.name = some n → l = l' := by
  have h : ∀ l ∈ exGLines, ∀ l' ∈ exGLines, l.name = l'.name → l = l' := by decide +kernel
  intro l hl l' hl' n h1 h2
  exact h l hl l' hl' (h1.trans h2.symm)

theorem ex_writableLines : List.Forall₂ WritableLine exGLines ["1".toList, "2".toList, "3".toList, "4".toList] := by
  have hb : ∀ x : Text, x ∈ [['a'], ['b'], ['c'], ['d'], ['e']] → Token ('n' :: x) := by unfold Token; decide
  refine .cons ⟨rfl, by unfold Token; decide, ?_, ?_, by unfold Token; decide⟩ (.cons ⟨rfl, by unfold Token; decide, ?_, ?_, by unfold Token; decide⟩
    (.cons ⟨rfl, by unfold Token; decide, ?_, ?_, by unfold Token; decide⟩ (.cons ⟨rfl, by unfold Token; decide, ?_, ?_, by unfold Token; decide⟩ .nil))) <;>
  · intro t ht
    injection ht with ht
    subst ht
    exact hb _ (by decide)

example : ∃ st rows ds, writeConfigs exCxStrokes {} 1 exGLines = .ok (st, rows) ∧ Lays rows ds ∧ NoInclude rows ∧ (ds.map nameOf).Nodup ∧
    (∀ l ∈ exGLines, Configured l → ∀ name, l.name = some name → ∀ cs, WritableMatrix l cs →
      ∃ d ∈ ds, ∃ n, nameOf d = some n ∧ configOf st.names name = some n ∧ ConfigSays exCxStrokes exZ l cs d) ∧
    (∀ d ∈ ds, d.cls = "line_configuration".toList ∧ ∃ l ∈ exGLines, Configured l ∧ ∃ cs, WritableMatrix l cs ∧ ConfigSays exCxStrokes exZ l cs d) ∧
    ∀ name, (∀ l ∈ exGLines, Configured l → l.name ≠ some name) → configOf st.names name = none :=
  C91_configurations_partial exZ_impedances ex_matrices ex_once

/-- the first and the last line share a configuration -/
example : ∃ st rows, writeConfigs exCxStrokes {} 1 exGLines = .ok (st, rows) ∧ configOf st.names "1".toList = configOf st.names "4".toList := by
  obtain ⟨st, rows, h1, h2⟩ := C91_shared exZ_impedances.token ex_matrices ex_once
  refine ⟨st, rows, h1, (h2 exLineAB (by simp [exGLines]) ⟨by decide, by decide⟩ _ rfl exLineBA (by simp [exGLines]) ⟨by decide, by decide⟩ _ rfl _ _
    ex_matrixAB ex_matrixBA ⟨?_, ?_⟩).1⟩
  · intro c
    simp only [List.mem_cons, List.not_mem_nil, or_false]
    exact or_comm
  · intro a b z
    have hp : ∀ m : List (List (Cx ℚ)), ∀ c, matrixPosition m ['B', 'A'] c = matrixPosition m ['A', 'B'] c := by
      intro m c
      have : (['B', 'A'].filter (· < c)).length = (['A', 'B'].filter (· < c)).length := by
        refine List.Perm.length_eq (List.Perm.filter _ (.swap ..))
      unfold matrixPosition
      rw [this]
    unfold Impedance
    simp only [hp]
    exact Iff.rfl

/-- the impedance `-2j` -/
example : ∃ st rows ds, writeConfigs (fun _ : Cx ℚ => "-2j".toList) {} 1 [exLineAB] = .ok (st, rows) ∧ Lays rows ds ∧
    ∃ d ∈ ds, nameOf d = configOf st.names "1".toList ∧ (nameOf d).isSome ∧ attrOf d (zKey 'A' 'B') = some ('0' :: '+' :: stripParens "-2j".toList) ∧
      ∀ w, ¬Value (fun t => if "0+-".toList <+: t then none else some (⟨0, -2⟩ : Cx ℚ)) d (zKey 'A' 'B') w := by
  refine C91_sign_violated (fun z => ?_) (fun l hl _ => ?_) (fun l hl l' hl' _ _ _ => ?_) (fun t => ?_) (List.mem_singleton.mpr rfl) ⟨by decide, by decide⟩
    rfl ex_matrixAB (by decide) (by decide) (z := ⟨0, 3⟩) ⟨_, _, rfl, rfl, rfl⟩ ?_
  · unfold Token
    decide
  · rw [List.mem_singleton.mp hl]
    exact ⟨_, ex_matrixAB⟩
  · rw [List.mem_singleton.mp hl, List.mem_singleton.mp hl']
  · exact if_pos ⟨t, rfl⟩
  · refine ⟨onePart_iff.mpr ?_, ?_⟩ <;> decide

example : ∃ st rows ds, writeConfigs exCxStrokes {} 1 exGLines = .ok (st, rows) ∧ Lays rows ds ∧
    ∃ d ∈ ds, nameOf d = configOf st.names "1".toList ∧ (nameOf d).isSome ∧
      ∃ w, Value exZ d (zKey 'A' 'A') w ∧ w.re / (160934 / 100) ≠ (1 : ℚ) :=
  C91_units_violated exZ_impedances ex_matrices ex_once (l := exLineAB) (by simp [exGLines]) ⟨by decide, by decide⟩ rfl ex_matrixAB (by decide) (by decide)
    (z := ⟨1, 2⟩) ⟨_, _, rfl, rfl, rfl⟩ (by decide) (ex_not_negative _)

/-- a line with the empty matrix -/
example : writeConfigs exCxStrokes {} 1 (exGLines ++ { exLineAB with matrix := some [] } :: []) = .error .indexError := by
  refine C91_matrix_violated (cs := ['B', 'A']) (m := []) (a := 'A') (b := 'B') {} 1 ex_matrices ⟨by decide, by decide⟩ ⟨rfl, by decide, by decide⟩ rfl
    (by decide) (by decide) ?_
  rintro ⟨z, m, row, h1, h2, -⟩
  cases h1
  cases h2

/-- a line with phase S1 -/
example : ∃ e, (e = .keyError ∨ e = .indexError) ∧
    writeConfigs exCxStrokes {} 1 (exGLines ++ { exLineAB with wires := [⟨some "S1".toList, none⟩] } :: []) = .error e :=
  C91_phase_violated {} 1 ex_matrices ⟨by decide, by decide⟩ rfl (List.mem_singleton.mpr rfl) rfl (by decide)

example : ∃ st rows st', writeConfigs exCxStrokes {} 1 exGLines = .ok (st, rows) ∧ writeConfigs exCxStrokes st 1 [exLineAC] = .ok (st', []) ∧
    ∀ l ∈ [exLineAC], Configured l → ∀ name, l.name = some name → ∃ n, configOf st'.names name = some n :=
  C91_again_violated exZ_impedances.token ex_matrices fun l hl => by rw [List.mem_singleton.mp hl]; simp [exGLines]

/-- the second line gets the configuration of the first -/
example : ∃ st rows st' rows' d n, writeConfigs exCxStrokes {} 1 [exLineAC] = .ok (st, rows) ∧
    writeConfigs exCxStrokes st 1 [exLineAB, exLineAC] = .ok (st', rows') ∧ Lays rows' [d] ∧ nameOf d = some n ∧
    configOf st'.names "2".toList = some n ∧ configOf st'.names "1".toList = some n ∧
    Value exZ d (zKey 'A' 'A') ⟨1, 2⟩ ∧ ¬Value exZ d (zKey 'A' 'A') ⟨5, 2⟩ :=
  C91_clash_violated exZ_impedances ⟨by decide, by decide⟩ ⟨by decide, by decide⟩ rfl rfl (by decide) ex_matrixAC ex_matrixAB (by decide) (by decide)
    (by decide) (by decide) ⟨_, _, rfl, rfl, rfl⟩ ⟨_, _, rfl, rfl, rfl⟩ (ex_not_negative _) (ex_not_negative _) (by decide)

example : ∃ st rows cds ds, writeConfigs exCxStrokes {} 1 exGLines = .ok (st, rows) ∧ Lays rows cds ∧ NoInclude rows ∧
    BraceLays (writeLineRows exStrokes st.names exGLines) ds ∧
    List.Forall₂ (fun (p : WGLine ℚ × Text) d => LineWritten exUnstroke (configOf st.names) p.1 p.2 d)
      (exGLines.zip ["1".toList, "2".toList, "3".toList, "4".toList]) ds ∧
    List.Forall₂ (fun l d => Configured l → ∀ cs, WritableMatrix l cs →
      ∃ c ∈ cds, nameOf c = attrOf d "configuration".toList ∧ (nameOf c).isSome ∧ ConfigSays exCxStrokes exZ l cs c) exGLines ds :=
  C92_file_partial ex_strokes exZ_impedances ex_writableLines (by decide) ex_matrices

/-- with configurations that were assigned before -/
example : ∃ ds, BraceLays (writeLineRows exStrokes [(some "1".toList, "c".toList)] exGLines) ds ∧
    NoInclude (writeLineRows exStrokes [(some "1".toList, "c".toList)] exGLines) ∧
    List.Forall₂ (fun (p : WGLine ℚ × Text) d => LineWritten exUnstroke (configOf [(some "1".toList, "c".toList)]) p.1 p.2 d)
      (exGLines.zip ["1".toList, "2".toList, "3".toList, "4".toList]) ds := by
  refine C92_written_partial ex_strokes (fun n t h => ?_) ex_writableLines
  rw [configOf_cons] at h
  split at h
  · cases h
    unfold Token
    decide
  · cases h

example : readGlm exSchema (fun _ => .ok false) (fun _ => none) [] (exFile ++ writeLineRows exStrokes [] exGLines ++ []) = .error .attributeError := by
  refine C92_unreadable_violated ex_strokes.token (fun n t h => by cases h) (fun l hl => ?_) (by decide) (fun cls h => ?_) ex_lays ex_good
    (by unfold NoInclude; decide +kernel) (fun _ h => by cases h) _ _
  · obtain ⟨n, -, hw⟩ := found_right ex_writableLines hl
    exact ⟨n, hw⟩
  · unfold exSchema
    split
    · rename_i h'
      rcases h' with rfl | rfl <;> revert h <;> decide
    · rfl

/-- an open switch -/
example : writeLineRows exStrokes [] (exGLines.map fun l => { l with wires := l.wires.map fun w => { w with isOpen := some true } }) =
    writeLineRows exStrokes [] exGLines := C92_open_violated exGLines fun _ _ => some true

example : ∃ st rows d, writeConfigs exCxStrokes {} 1 exGLines = .ok (st, rows) ∧ LineWritten exUnstroke (configOf st.names) exLineSwitch "3".toList d ∧
    BraceLays (writeLineRows exStrokes st.names [exLineSwitch]) [d] ∧ d.cls = "underground_line".toList ∧ attrOf d "configuration".toList = none := by
  have hw : WritableLine exLineSwitch "3".toList := (List.forall₂_iff_get.mp ex_writableLines).2 2 (by decide) (by decide)
  exact C92_underground_violated ex_strokes exZ_impedances ex_matrices ex_once (by simp [exGLines]) hw (fun h => h.1 rfl) rfl

end Ditto.Glm
