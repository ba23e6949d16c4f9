import Verif.Spec.CymeDg
import Verif.Props.CymeLines
import Verif.Props.CymeRegWrite
import Verif.Lemmas.Carson
import Verif.Lemmas.GroupVoltages

/-! C119: photovoltaic systems and storages of CYME files. -/
namespace Ditto.Cyme
open Ditto Glm Spec Ditto.Spec

/-! ### the dictionaries of objects -/

theorem updateLast_none {A : Type} {key : A → Text} {name : Text} {f : A → A} {l : List A} (h : name ∉ l.map key) : updateLast key name f l = none := by
  induction l with
  | nil => rfl
  | cons a as ih =>
    rw [List.map_cons, List.mem_cons, not_or] at h
    rw [updateLast, ih h.2]
    dsimp only
    rw [if_neg fun hh => h.1 hh.symm]

theorem updateLast_map {A : Type} {key : A → Text} {name : Text} {f : A → A} {l : List A} (hn : (l.map key).Nodup) (h : name ∈ l.map key) :
    updateLast key name f l = some (l.map fun a => if key a = name then f a else a) := by
  induction l with
  | nil => cases h
  | cons a as ih =>
    rw [List.map_cons, List.nodup_cons] at hn
    rw [updateLast, List.map_cons]
    by_cases ha : key a = name
    · have hno : name ∉ as.map key := ha ▸ hn.1
      rw [updateLast_none hno]
      dsimp only
      rw [if_pos ha, if_pos ha]
      congr 2
      refine (List.map_id'' (f := fun x : A => x) (fun _ => rfl) as).symm.trans (List.map_congr_left fun x hx => ?_)
      have hx' : key x ≠ name := fun hh => hno (hh ▸ List.mem_map_of_mem hx)
      rw [if_neg hx']
    · rw [List.map_cons, List.mem_cons] at h
      rw [ih hn.2 (h.resolve_left fun hh => ha hh.symm)]
      dsimp only
      rw [if_neg ha]

/-- the rows of a device -/
def rowsAt (dev : Text) (t : List (Text × Values)) : List Values := (t.filter fun r => rowSection r.1 = dev).map (·.2)

theorem rowsAt_cons (dev : Text) (r : Text × Values) (t : List (Text × Values)) :
    rowsAt dev (r :: t) = if rowSection r.1 = dev then r.2 :: rowsAt dev t else rowsAt dev t := by
  unfold rowsAt
  by_cases h : rowSection r.1 = dev
  · rw [if_pos h, List.filter_cons_of_pos (p := fun r : Text × Values => decide (rowSection r.1 = dev)) (decide_eq_true h), List.map_cons]
  · rw [if_neg h, List.filter_cons_of_neg (p := fun r : Text × Values => decide (rowSection r.1 = dev)) fun hh => h (of_decide_eq_true hh)]

theorem rowsAt_for {t : List (Text × Values)} (h : DeviceKeys t) (dev : Text) : RowsFor dev t (rowsAt dev t) := by
  induction t with
  | nil => exact .nil
  | cons r t ih =>
    have ht : RowsFor dev t (rowsAt dev t) := ih fun e he => h e (List.mem_cons_of_mem _ he)
    obtain ⟨s, hs⟩ := h r List.mem_cons_self
    rw [rowsAt_cons, rowSection_of hs]
    by_cases hd : s = dev
    · rw [if_pos hd]
      exact .here (hd ▸ hs) ht
    · rw [if_neg hd]
      exact .other hs hd ht

/-- the changes of all rows of its device -/
def changed {A : Type} (key : A → Text) (f : Values → A → A) (t : List (Text × Values)) (a : A) : A := (rowsAt (key a) t).foldl (fun a r => f r a) a

theorem changed_cons {A : Type} {key : A → Text} {f : Values → A → A} (hf : ∀ r a, key (f r a) = key a) (r : Text × Values)
    (t : List (Text × Values)) (a : A) : changed key f (r :: t) a = changed key f t (if key a = rowSection r.1 then f r.2 a else a) := by
  unfold changed
  rw [rowsAt_cons]
  by_cases h : key a = rowSection r.1
  · rw [if_pos h, if_pos h.symm, List.foldl_cons, hf]
  · rw [if_neg h, if_neg fun hh => h hh.symm]

theorem keys_same {A : Type} {key : A → Text} {g : A → A} (hg : ∀ a, key (g a) = key a) (l : List A) : (l.map g).map key = l.map key := by
  rw [List.map_map]
  exact List.map_congr_left fun a _ => hg a

theorem changed_key {A : Type} {key : A → Text} {f : Values → A → A} (hf : ∀ r a, key (f r a) = key a) (t : List (Text × Values)) (a : A) :
    key (changed key f t a) = key a := by
  unfold changed
  generalize rowsAt (key a) t = rows
  induction rows generalizing a with
  | nil => rfl
  | cons r rows ih => rw [List.foldl_cons, ih, hf]

section
variable {N : Type} [Field N]

theorem generation_device (num : Text → Option N) (r : Values) (pv : DgPv N) : (generationStep num r pv).device = pv.device := by
  unfold generationStep
  split <;> rfl

theorem allGenerations_map (num : Text → Option N) (rows : List (Text × Values)) (pvs : List (DgPv N)) (hn : (pvs.map DgPv.device).Nodup)
    (h : ∀ r ∈ rows, rowSection r.1 ∈ pvs.map DgPv.device) :
    allGenerations num rows pvs = .ok (pvs.map (changed DgPv.device (generationStep num) rows)) := by
  induction rows generalizing pvs with
  | nil =>
    rw [allGenerations]
    congr 1
    exact (List.map_id'' (fun _ => rfl) pvs).symm
  | cons r rows ih =>
    rw [allGenerations, updateLast_map hn (h r List.mem_cons_self)]
    dsimp only
    have hk : ∀ pv : DgPv N, (if pv.device = rowSection r.1 then generationStep num r.2 pv else pv).device = pv.device := by
      intro pv
      split
      · exact generation_device num r.2 pv
      · rfl
    have hs := keys_same (key := DgPv.device) hk pvs
    rw [ih _ (hs ▸ hn) fun q hq => by rw [hs]; exact h q (List.mem_cons_of_mem _ hq), List.map_map]
    congr 1
    refine List.map_congr_left fun pv _ => ?_
    rw [changed_cons (generation_device num)]
    rfl

theorem allControls_map (num : Text → Option N) (rows : List (Text × Values)) (pvs : List (DgPv N)) (hn : (pvs.map DgPv.device).Nodup) :
    allControls num rows pvs = pvs.map (changed DgPv.device (controlStep num) rows) := by
  induction rows generalizing pvs with
  | nil =>
    rw [allControls]
    exact (List.map_id'' (fun _ => rfl) pvs).symm
  | cons r rows ih =>
    rw [allControls]
    have hc : ∀ pv : DgPv N, changed DgPv.device (controlStep num) (r :: rows) pv =
        changed DgPv.device (controlStep num) rows (if pv.device = rowSection r.1 then controlStep num r.2 pv else pv) :=
      fun pv => changed_cons (key := DgPv.device) (f := controlStep num) (fun _ _ => rfl) r rows pv
    by_cases h : rowSection r.1 ∈ pvs.map DgPv.device
    · rw [updateLast_map hn h]
      dsimp only
      have hk : ∀ pv : DgPv N, (if pv.device = rowSection r.1 then controlStep num r.2 pv else pv).device = pv.device := by
        intro pv
        split <;> rfl
      rw [ih _ (keys_same (key := DgPv.device) hk pvs ▸ hn), List.map_map]
      refine List.map_congr_left fun pv _ => ?_
      rw [hc]
      rfl
    · rw [updateLast_none h]
      dsimp only
      rw [ih _ hn]
      refine List.map_congr_left fun pv hpv => ?_
      have hne : pv.device ≠ rowSection r.1 := fun hh => h (hh ▸ List.mem_map_of_mem hpv)
      rw [hc, if_neg hne]

/-- the rows of converters that are not those of photovoltaic systems -/
def restOf (devices : List Text) (t : List (Text × Values)) : List (Text × Values) := t.filter fun r => rowSection r.1 ∉ devices

theorem allConverters_map (num : Text → Option N) (rows : List (Text × Values)) (pvs : List (DgPv N)) (sts : List (DgStorage N))
    (hn : (pvs.map DgPv.device).Nodup) (hm : (sts.map DgStorage.device).Nodup) :
    allConverters num rows (pvs, sts) = (pvs.map (changed DgPv.device (converterPv num) rows),
      sts.map (changed DgStorage.device (converterStorage num) (restOf (pvs.map DgPv.device) rows))) := by
  induction rows generalizing pvs sts with
  | nil =>
    rw [allConverters]
    exact Prod.ext (List.map_id'' (fun _ => rfl) pvs).symm (List.map_id'' (fun _ => rfl) sts).symm
  | cons r rows ih =>
    rw [allConverters]
    have hc : ∀ pv : DgPv N, changed DgPv.device (converterPv num) (r :: rows) pv =
        changed DgPv.device (converterPv num) rows (if pv.device = rowSection r.1 then converterPv num r.2 pv else pv) :=
      fun pv => changed_cons (key := DgPv.device) (f := converterPv num) (fun _ _ => rfl) r rows pv
    by_cases h : rowSection r.1 ∈ pvs.map DgPv.device
    · rw [updateLast_map hn h]
      dsimp only
      have hk : ∀ pv : DgPv N, (if pv.device = rowSection r.1 then converterPv num r.2 pv else pv).device = pv.device := by
        intro pv
        split <;> rfl
      have hs := keys_same (key := DgPv.device) hk pvs
      rw [ih _ _ (hs ▸ hn) hm, List.map_map, hs]
      have hr : restOf (pvs.map DgPv.device) (r :: rows) = restOf (pvs.map DgPv.device) rows :=
        List.filter_cons_of_neg (p := fun r : Text × Values => decide (rowSection r.1 ∉ pvs.map DgPv.device)) fun hh => of_decide_eq_true hh h
      rw [hr]
      refine Prod.ext ?_ rfl
      refine List.map_congr_left fun pv _ => ?_
      rw [hc]
      rfl
    · rw [updateLast_none h]
      dsimp only
      have hp : pvs.map (changed DgPv.device (converterPv num) (r :: rows)) = pvs.map (changed DgPv.device (converterPv num) rows) := by
        refine List.map_congr_left fun pv hpv => ?_
        have hne : pv.device ≠ rowSection r.1 := fun hh => h (hh ▸ List.mem_map_of_mem hpv)
        rw [hc, if_neg hne]
      have hr : restOf (pvs.map DgPv.device) (r :: rows) = r :: restOf (pvs.map DgPv.device) rows :=
        List.filter_cons_of_pos (p := fun r : Text × Values => decide (rowSection r.1 ∉ pvs.map DgPv.device)) (decide_eq_true h)
      rw [hp, hr]
      have hc2 : ∀ t, ∀ s : DgStorage N, changed DgStorage.device (converterStorage num) (r :: t) s =
          changed DgStorage.device (converterStorage num) t (if s.device = rowSection r.1 then converterStorage num r.2 s else s) :=
        fun t s => changed_cons (key := DgStorage.device) (f := converterStorage num) (fun _ _ => rfl) r t s
      by_cases h2 : rowSection r.1 ∈ sts.map DgStorage.device
      · rw [updateLast_map hm h2]
        dsimp only
        have hk : ∀ s : DgStorage N, (if s.device = rowSection r.1 then converterStorage num r.2 s else s).device = s.device := by
          intro s
          split <;> rfl
        rw [ih _ _ hn (keys_same (key := DgStorage.device) hk sts ▸ hm), List.map_map]
        refine Prod.ext rfl ?_
        refine List.map_congr_left fun s _ => ?_
        rw [hc2]
        rfl
      · rw [updateLast_none h2]
        dsimp only
        rw [ih _ _ hn hm]
        refine Prod.ext rfl ?_
        refine List.map_congr_left fun s hsm => ?_
        have hne : s.device ≠ rowSection r.1 := fun hh => h2 (hh ▸ List.mem_map_of_mem hsm)
        rw [hc2, if_neg hne]

/-! ### the last value -/

/-- the last value, computed -/
def lastFrom {A : Type} (init : Option A) : List (Option A) → Option A
  | [] => init
  | some a :: l => lastFrom (some a) l
  | none :: l => lastFrom init l

theorem lastOf_cons {A : Type} {init : Option A} {l : List (Option A)} {a : A} {x : Option A} (h : LastOf (some a) l x) : LastOf init (some a :: l) x := by
  cases h with
  | @last before after b hb => exact LastOf.last (before := some a :: before) hb
  | init hl => exact LastOf.last (before := []) hl

theorem lastOf_skip {A : Type} {init : Option A} {l : List (Option A)} {x : Option A} (h : LastOf init l x) : LastOf init (none :: l) x := by
  cases h with
  | @last before after b hb => exact LastOf.last (before := none :: before) hb
  | init hl =>
    refine LastOf.init fun y hy => ?_
    rcases List.mem_cons.mp hy with rfl | hy
    · rfl
    · exact hl y hy

theorem lastFrom_of {A : Type} (init : Option A) (l : List (Option A)) : LastOf init l (lastFrom init l) := by
  induction l generalizing init with
  | nil => exact LastOf.init fun x hx => by cases hx
  | cons x l ih =>
    cases x with
    | none => exact lastOf_skip (ih init)
    | some a => exact lastOf_cons (ih (some a))

theorem lastFrom_append {A : Type} (init : Option A) (l l' : List (Option A)) : lastFrom init (l ++ l') = lastFrom (lastFrom init l) l' := by
  induction l generalizing init with
  | nil => rfl
  | cons x l ih => cases x <;> exact ih _

/-- an attribute that each row may change -/
theorem fold_last {S A : Type} (step : Values → S → S) (get : S → Option A) (val : Values → Option A)
    (h : ∀ r s, get (step r s) = match val r with | some a => some a | none => get s) (rows : List Values) (s : S) :
    get (rows.foldl (fun s r => step r s) s) = lastFrom (get s) (rows.map val) := by
  induction rows generalizing s with
  | nil => rfl
  | cons r rows ih =>
    rw [List.foldl_cons, ih, h, List.map_cons]
    cases val r <;> rfl

/-- an attribute that no row changes -/
theorem fold_same {S A : Type} (step : Values → S → S) (get : S → A) (h : ∀ r s, get (step r s) = get s) (rows : List Values) (s : S) :
    get (rows.foldl (fun s r => step r s) s) = get s := by
  induction rows generalizing s with
  | nil => rfl
  | cons r rows ih => rw [List.foldl_cons, ih, h]

omit [Field N] in
theorem keepOr_some {A : Type} (num : Text → Option N) (d : Values) (k : String) (f : N → A) (old : Option A) :
    keepOr num d k (fun x => some (f x)) old = match (numberIn num d k.toList).map f with | some a => some a | none => old := by
  unfold keepOr numberIn floatAt
  cases getEntry k.toList d with
  | none => rfl
  | some t =>
    dsimp only
    rw [Option.bind_some]
    cases num t <;> rfl

omit [Field N] in
theorem keepOr_plain (num : Text → Option N) (d : Values) (k : String) (f : N → N) (old : N) :
    some (keepOr num d k f old) = match (numberIn num d k.toList).map f with | some a => some a | none => some old := by
  unfold keepOr numberIn floatAt
  cases getEntry k.toList d with
  | none => rfl
  | some t =>
    dsimp only
    rw [Option.bind_some]
    cases num t <;> rfl

omit [Field N] in
theorem keepOr_none (num : Text → Option N) (d : Values) (k : String) : keepOr num d k some none = numberIn num d k.toList := by
  refine (keepOr_some num d k id none).trans ?_
  cases numberIn num d k.toList <;> rfl

theorem isDefault_iff (r : Values) : isDefault r = true ↔ DefaultModel r := by
  unfold isDefault DefaultModel
  cases getEntry "loadmodelname".toList r with
  | none => exact ⟨fun h => (Bool.false_ne_true h).elim, fun ⟨t, h, _⟩ => nomatch h⟩
  | some t =>
    dsimp only
    rw [decide_eq_true_iff]
    exact ⟨fun h => ⟨t, rfl, h⟩, fun ⟨u, h, hu⟩ => by cases h; exact hu⟩

omit [Field N] in
theorem model_number (num : Text → Option N) (k : String) (f : N → N) (gs : List Values) :
    List.Forall₂ (ModelNumber num k f) gs (gs.map fun r => if isDefault r then (numberIn num r k.toList).map f else none) := by
  rw [List.forall₂_map_right_iff, List.forall₂_same]
  intro r _
  by_cases h : isDefault r = true
  · rw [if_pos h]
    exact .default ((isDefault_iff r).mp h)
  · rw [if_neg h]
    exact .other fun hh => h ((isDefault_iff r).mpr hh)

/-- the type of control of a row, computed -/
def controlIn (r : Values) : Option Text :=
  match getEntry "controltype".toList r with
  | none => none
  | some c => getEntry c controlCodes

theorem controlIn_of (r : Values) : ControlIn r (controlIn r) := by
  unfold controlIn
  cases h : getEntry "controltype".toList r with
  | none => exact .none fun c _ hh => by rw [h] at hh; cases hh
  | some c =>
    dsimp only
    cases hc : getEntry c controlCodes with
    | none =>
      refine .none fun p hp hh => ?_
      rw [h] at hh
      have : ∀ p ∈ controlNames, getEntry p.1.toList controlCodes ≠ none := by decide +kernel
      exact this p hp (Option.some.inj hh ▸ hc)
    | some t =>
      have key : ∀ (l : List (Text × Text)) (t : Text), getEntry c l = some t → (c, t) ∈ l := by
        intro l
        induction l with
        | nil => intro t h; cases h
        | cons p l ih =>
          intro t h
          rw [getEntry] at h
          by_cases hp : p.1 = c
          · rw [if_pos hp] at h
            rw [← Option.some.inj h, ← hp]
            exact List.mem_cons_self
          · rw [if_neg hp] at h
            exact List.mem_cons_of_mem _ (ih t h)
      have hm := key _ _ hc
      have all : ∀ q ∈ controlCodes, ∃ p ∈ controlNames, q = (p.1.toList, p.2.toList) := by decide +kernel
      obtain ⟨p, hp, he⟩ := all _ hm
      rw [Prod.mk.injEq] at he
      rw [he.2]
      exact .known (by rw [h, he.1]) hp

theorem controlAfter_eq (r : Values) (old : Option Text) : controlAfter r old = match controlIn r with | some a => some a | none => old := by
  unfold controlAfter controlIn
  cases getEntry "controltype".toList r with
  | none => rfl
  | some c =>
    dsimp only
    cases getEntry c controlCodes <;> rfl

/-! ### photovoltaic systems -/

theorem pv_ok {num : Text → Option N} {secs : List (Text × Values)} {feeders : List (Text × Text)} {e : Text × Values} {pv : DgPv N}
    (hb : buildPv num secs feeders e = .ok pv) {t : DgTables} (hg : DeviceKeys t.generations) (hc : DeviceKeys t.converters)
    (hk : DeviceKeys t.controls) : PvOk num secs feeders t e
      (changed DgPv.device (controlStep num) t.controls (changed DgPv.device (converterPv num) t.converters
        (changed DgPv.device (generationStep num) t.generations pv))) := by
  have h1 : (changed DgPv.device (generationStep num) t.generations pv).device = pv.device := changed_key (generation_device num) _ _
  have h2 : ∀ p : DgPv N, (changed DgPv.device (converterPv num) t.converters p).device = p.device :=
    changed_key (key := DgPv.device) (f := converterPv num) (fun _ _ => rfl) _
  have h3 : ∀ p : DgPv N, (changed DgPv.device (controlStep num) t.controls p).device = p.device :=
    changed_key (key := DgPv.device) (f := controlStep num) (fun _ _ => rfl) _
  have hdev := (h3 _).trans ((h2 _).trans h1)
  have hfin : changed DgPv.device (controlStep num) t.controls (changed DgPv.device (converterPv num) t.converters
        (changed DgPv.device (generationStep num) t.generations pv)) =
      (rowsAt pv.device t.controls).foldl (fun s r => controlStep num r s) ((rowsAt pv.device t.converters).foldl (fun s r => converterPv num r s)
        ((rowsAt pv.device t.generations).foldl (fun s r => generationStep num r s) pv)) := by
    conv_lhs => rw [changed, h2, h1, changed, h1, changed]
  have hgs := rowsAt_for hg pv.device
  have hcs := rowsAt_for hc pv.device
  have hks := rowsAt_for hk pv.device
  rw [hfin] at hdev ⊢
  generalize rowsAt pv.device t.generations = gs at *
  generalize rowsAt pv.device t.converters = cs at *
  generalize rowsAt pv.device t.controls = ks at *
  clear hfin h1 h2 h3
  have gsame : ∀ {A : Type} (get : DgPv N → A), (∀ p a f, get { p with active := a, powerFactor := f } = get p) →
      get (gs.foldl (fun s r => generationStep num r s) pv) = get pv := by
    intro A get h
    refine fold_same _ _ (fun r s => ?_) gs pv
    unfold generationStep
    split
    · exact h ..
    · rfl
  have csame : ∀ {A : Type} (get : DgPv N → A), (∀ r p, get (converterPv num r p) = get p) → ∀ p,
      get (cs.foldl (fun s r => converterPv num r s) p) = get p := fun get h p => fold_same _ _ h cs p
  have ksame : ∀ {A : Type} (get : DgPv N → A), (∀ r p, get (controlStep num r p) = get p) → ∀ p,
      get (ks.foldl (fun s r => controlStep num r s) p) = get p := fun get h p => fold_same _ _ h ks p
  unfold buildPv at hb
  cases hd : getEntry "devicenumber".toList e.2 with
  | none => rw [hd] at hb; cases hb
  | some d =>
  rw [hd] at hb
  dsimp only at hb
  cases hf : getEntry (lower e.1) feeders with
  | none => rw [hf] at hb; cases hb
  | some feeder =>
  rw [hf] at hb
  dsimp only at hb
  have hpv := Except.ok.inj hb
  clear hb
  have same : ∀ {A : Type} (get : DgPv N → A), (∀ p a f, get { p with active := a, powerFactor := f } = get p) →
      (∀ r p, get (converterPv num r p) = get p) → (∀ r p, get (controlStep num r p) = get p) →
      get (ks.foldl (fun s r => controlStep num r s) (cs.foldl (fun s r => converterPv num r s)
        (gs.foldl (fun s r => generationStep num r s) pv))) = get pv :=
    fun get ha hb' hc' => by rw [ksame get hc', csame get hb', gsame get ha]
  refine ⟨⟨d, hd, ?_⟩, ?_, ?_, ?_, ?_, ?_, gs, cs, ks, ?_⟩
  · rw [hdev, ← hpv]
    rfl
  · rw [hdev, same DgPv.name (fun _ _ _ => rfl) (fun _ _ => rfl) (fun _ _ => rfl), ← hpv]
  · rw [same DgPv.feeder (fun _ _ _ => rfl) (fun _ _ => rfl) (fun _ _ => rfl), ← hpv]
    exact hf
  · rw [same DgPv.node (fun _ _ _ => rfl) (fun _ _ => rfl) (fun _ _ => rfl), ← hpv]
    show firstNode secs e.1 = (getEntry (lower e.1) secs).bind _
    unfold firstNode
    cases getEntry (lower e.1) secs <;> rfl
  · rw [same DgPv.temperature (fun _ _ _ => rfl) (fun _ _ => rfl) (fun _ _ => rfl), ← hpv]
    exact keepOr_none ..
  · intro p hp
    rw [same DgPv.phases (fun _ _ _ => rfl) (fun _ _ => rfl) (fun _ _ => rfl), ← hpv]
    dsimp only
    rw [hp]
  · rw [hdev]
    refine ⟨hgs, hcs, hks, ⟨_, model_number .., ?_⟩, ⟨_, model_number .., ?_⟩, ?_, ?_, ?_, ?_, ?_, ?_⟩
    · rw [ksame DgPv.active (fun _ _ => rfl), csame DgPv.active (fun _ _ => rfl),
        fold_last (generationStep num) DgPv.active (fun r => if isDefault r then (numberIn num r "activegeneration".toList).map kilo else none) (by
          intro r s
          unfold generationStep
          split
          · exact keepOr_some num r "activegeneration" kilo s.active
          · rfl), ← hpv]
      exact lastFrom_of ..
    · rw [fold_last (controlStep num) (fun p => some p.powerFactor) (fun r => (numberIn num r "powerfactor".toList).map percent) (by
          intro r s
          exact keepOr_plain num r "powerfactor" percent s.powerFactor), csame (fun p => some p.powerFactor) (fun _ _ => rfl),
        fold_last (generationStep num) (fun p => some p.powerFactor)
          (fun r => if isDefault r then (numberIn num r "powerfactor".toList).map percent else none) (by
          intro r s
          unfold generationStep
          split
          · exact keepOr_plain num r "powerfactor" percent s.powerFactor
          · rfl), ← hpv, ← lastFrom_append]
      exact lastFrom_of ..
    · rw [ksame DgPv.rated (fun _ _ => rfl), fold_last (converterPv num) DgPv.rated _ fun r s => keepOr_some num r "activepowerrating" kilo s.rated,
        gsame DgPv.rated (fun _ _ _ => rfl), ← hpv]
      exact lastFrom_of ..
    · rw [ksame DgPv.reactive (fun _ _ => rfl),
        fold_last (converterPv num) DgPv.reactive _ fun r s => keepOr_some num r "reactivepowerrating" kilo s.reactive,
        gsame DgPv.reactive (fun _ _ _ => rfl), ← hpv]
      exact lastFrom_of ..
    · rw [ksame DgPv.fall (fun _ _ => rfl),
        fold_last (converterPv num) DgPv.fall (fun r => numberIn num r "powerfalllimit".toList) fun r s => (keepOr_some num r "powerfalllimit" id s.fall).trans (by
          rw [Option.map_id]; rfl),
        gsame DgPv.fall (fun _ _ _ => rfl), ← hpv]
      exact lastFrom_of ..
    · rw [ksame DgPv.rise (fun _ _ => rfl),
        fold_last (converterPv num) DgPv.rise (fun r => numberIn num r "powerriselimit".toList) fun r s => (keepOr_some num r "powerriselimit" id s.rise).trans (by
          rw [Option.map_id]; rfl),
        gsame DgPv.rise (fun _ _ _ => rfl), ← hpv]
      exact lastFrom_of ..
    · rw [fold_last (controlStep num) (fun p => some p.injection) (fun r => numberIn num r "fixedvarinjection".toList) fun r s =>
          (keepOr_plain num r "fixedvarinjection" id s.injection).trans (by rw [Option.map_id]; rfl),
        csame (fun p => some p.injection) (fun _ _ => rfl), gsame (fun p => some p.injection) (fun _ _ _ => rfl), ← hpv]
      exact lastFrom_of ..
    · refine ⟨ks.map controlIn, ?_, ?_⟩
      · rw [List.forall₂_map_right_iff, List.forall₂_same]
        exact fun r _ => controlIn_of r
      · rw [fold_last (controlStep num) DgPv.control controlIn (fun r s => (controlAfter_eq r s.control).trans (by cases controlIn r <;> rfl)), csame DgPv.control (fun _ _ => rfl),
          gsame DgPv.control (fun _ _ _ => rfl), ← hpv]
        exact lastFrom_of ..


/-! ### storages -/

variable [LinearOrder N]

theorem averagePower_of {num : Text → Option N} {data : Values} {p : N} (h : PowerIn num data p) (n : Nat) :
    averagePower num data n = some (p * 1000 / (n : N)) := by
  have found : ∀ {k : String} {a : N}, numberIn num data k.toList = some a → powerLimit num data k = .ok (some a) := by
    intro k a h
    unfold powerLimit
    rw [floatAt_in h]
    unfold numberIn at h
    cases hk : getEntry k.toList data with
    | none => rw [hk] at h; cases h
    | some t => rfl
  have missing : ∀ {k : String}, getEntry k.toList data = none → powerLimit num data k = .ok none := by
    intro k h
    unfold powerLimit
    rw [h]
  unfold averagePower
  cases h with
  | both ha hb => rw [found ha, found hb]; rfl
  | charging ha hb => rw [found ha, missing hb]; rfl
  | discharging ha hb => rw [missing ha, found hb]; rfl

theorem storage_ok {num : Text → Option N} {secs : List (Text × Values)} {feeders : List (Text × Text)} {e : Text × Values} {s : DgStorage N}
    {t : DgTables} (hb : buildStorage num secs feeders t.bess e = .ok s) (hc : DeviceKeys t.converters) {devices : List Text} (hd : s.device ∉ devices) :
    StorageOk num secs feeders t e (changed DgStorage.device (converterStorage num) (restOf devices t.converters) s) := by
  have hrest : rowsAt s.device (restOf devices t.converters) = rowsAt s.device t.converters := by
    unfold rowsAt restOf
    rw [List.filter_filter]
    congr 1
    refine List.filter_congr fun r _ => ?_
    by_cases hr : rowSection r.1 = s.device
    · rw [decide_eq_true hr, decide_eq_true (hr ▸ hd)]
      rfl
    · rw [decide_eq_false hr]
      rfl
  have hrows := rowsAt_for hc s.device
  unfold changed
  rw [hrest]
  generalize rowsAt s.device t.converters = cs at *
  have same : ∀ {A : Type} (get : DgStorage N → A), (∀ r p, get (converterStorage num r p) = get p) →
      get (cs.foldl (fun s r => converterStorage num r s) s) = get s := fun get h => fold_same _ _ h cs s
  unfold buildStorage at hb
  cases hdv : getEntry "devicenumber".toList e.2 with
  | none => rw [hdv] at hb; cases hb
  | some d =>
  rw [hdv] at hb
  dsimp only at hb
  cases hf : getEntry (lower e.1) feeders with
  | none => rw [hf] at hb; cases hb
  | some feeder =>
  rw [hf] at hb
  dsimp only at hb
  have hs := Except.ok.inj hb
  clear hb
  refine ⟨⟨d, hdv, ?_⟩, ?_, ?_, ?_, ?_, ?_, ?_, cs, ?_, ?_, ?_, ?_⟩
  · rw [same DgStorage.device (fun _ _ => rfl), ← hs]
    rfl
  · rw [same DgStorage.name (fun _ _ => rfl), same DgStorage.device (fun _ _ => rfl), ← hs]
  · rw [same DgStorage.feeder (fun _ _ => rfl), ← hs]
    exact hf
  · rw [same DgStorage.node (fun _ _ => rfl), ← hs]
    show firstNode secs e.1 = (getEntry (lower e.1) secs).bind _
    unfold firstNode
    cases getEntry (lower e.1) secs <;> rfl
  · intro p hp
    rw [same DgStorage.phases (fun _ _ => rfl), ← hs]
    dsimp only
    rw [List.map_map]
    refine (List.map_id'' (f := (fun x : Char × Option N => x.1) ∘ fun p => (p, _)) (fun _ => rfl) _).trans ?_
    unfold storagePhases
    rcases hp with hp | ⟨hp, rfl⟩
    · rw [hp]
    · rw [hp]
      decide
  · intro k data hk hdata
    have hdt : storageData t.bess e.2 = some data := by
      unfold storageData
      rw [hk]
      exact hdata
    rw [same DgStorage.energy (fun _ _ => rfl), same DgStorage.phases (fun _ _ => rfl), ← hs]
    dsimp only
    rw [hdt]
    refine ⟨keepOr_none .., fun p hp x hx => ?_⟩
    rw [List.length_map]
    obtain ⟨c, _, rfl⟩ := List.mem_map.mp hx
    exact averagePower_of hp _
  · intro x r hx hr
    rw [same DgStorage.energy (fun _ _ => rfl)] at hr
    rw [same DgStorage.stored (fun _ _ => rfl)]
    rw [← hs] at hr ⊢
    dsimp only at hr ⊢
    unfold storedEnergy
    rw [hr]
    dsimp only
    rw [keepOr_some num e.2 "initialsoc" (fun x => x * r / 100) none, hx]
    rfl
  · rw [same DgStorage.device (fun _ _ => rfl)]
    exact hrows
  · rw [fold_last (converterStorage num) DgStorage.rated _ fun r s => keepOr_some num r "activepowerrating" kilo s.rated, ← hs]
    exact lastFrom_of ..
  · rw [fold_last (converterStorage num) DgStorage.reactive _ fun r s => keepOr_some num r "reactivepowerrating" kilo s.reactive, ← hs]
    exact lastFrom_of ..
  · rw [fold_last (converterStorage num) DgStorage.minPowerFactor _ fun r s => keepOr_some num r "minimumpowerfactor" percent s.minPowerFactor, ← hs]
    exact lastFrom_of ..

/-! ### all of them -/

omit [LinearOrder N] in
theorem pvs_built (num : Text → Option N) (secs : List (Text × Values)) {feeders : List (Text × Text)} {entries : List (Text × Values)}
    {devices : List Text} (hn : List.Forall₂ DeviceIs entries devices) (hf : ∀ e ∈ entries, ∃ f, getEntry (e.1.map Char.toLower) feeders = some f) :
    ∃ pvs, entries.mapM (buildPv num secs feeders) = .ok pvs ∧ pvs.map DgPv.device = devices := by
  induction hn with
  | nil => exact ⟨[], rfl, rfl⟩
  | @cons e dev es ds he hes ih =>
    obtain ⟨pvs, hp, hk⟩ := ih fun x hx => hf x (List.mem_cons_of_mem _ hx)
    obtain ⟨d, hd, hdev⟩ := he
    obtain ⟨f, hf'⟩ := hf e List.mem_cons_self
    have hb : ∃ pv : DgPv N, buildPv num secs feeders e = .ok pv ∧ pv.device = dev := by
      unfold buildPv
      rw [hd]
      dsimp only
      rw [show getEntry (lower e.1) feeders = some f from hf']
      exact ⟨_, rfl, hdev.symm⟩
    obtain ⟨pv, hpv, hpd⟩ := hb
    refine ⟨pv :: pvs, ?_, ?_⟩
    · rw [List.mapM_cons, hpv, hp]
      rfl
    · rw [List.map_cons, hpd, hk]

theorem storages_built (num : Text → Option N) (secs : List (Text × Values)) (bess : List (Text × Values)) {feeders : List (Text × Text)}
    {entries : List (Text × Values)} {devices : List Text} (hn : List.Forall₂ DeviceIs entries devices)
    (hf : ∀ e ∈ entries, ∃ f, getEntry (e.1.map Char.toLower) feeders = some f) :
    ∃ sts, entries.mapM (buildStorage num secs feeders bess) = .ok sts ∧ sts.map DgStorage.device = devices := by
  induction hn with
  | nil => exact ⟨[], rfl, rfl⟩
  | @cons e dev es ds he hes ih =>
    obtain ⟨sts, hp, hk⟩ := ih fun x hx => hf x (List.mem_cons_of_mem _ hx)
    obtain ⟨d, hd, hdev⟩ := he
    obtain ⟨f, hf'⟩ := hf e List.mem_cons_self
    have hb : ∃ s : DgStorage N, buildStorage num secs feeders bess e = .ok s ∧ s.device = dev := by
      unfold buildStorage
      rw [hd]
      dsimp only
      rw [show getEntry (lower e.1) feeders = some f from hf']
      exact ⟨_, rfl, hdev.symm⟩
    obtain ⟨s, hs, hsd⟩ := hb
    refine ⟨s :: sts, ?_, ?_⟩
    · rw [List.mapM_cons, hs, hp]
      rfl
    · rw [List.map_cons, hsd, hk]

theorem all_dg {num : Text → Option N} {secs : List (Text × Values)} {feeders : List (Text × Text)} {t : DgTables} {pvs : List (DgPv N)}
    {sts : List (DgStorage N)} (hp : t.photovoltaics.mapM (buildPv num secs feeders) = .ok pvs)
    (hs : t.storages.mapM (buildStorage num secs feeders t.bess) = .ok sts) (hn : (pvs.map DgPv.device).Nodup) (hm : (sts.map DgStorage.device).Nodup)
    (hg : ∀ r ∈ t.generations, rowSection r.1 ∈ pvs.map DgPv.device) :
    allDg num secs feeders t = .ok (pvs.map fun pv => changed DgPv.device (controlStep num) t.controls
      (changed DgPv.device (converterPv num) t.converters (changed DgPv.device (generationStep num) t.generations pv)),
      sts.map (changed DgStorage.device (converterStorage num) (restOf (pvs.map DgPv.device) t.converters))) := by
  have k1 : (pvs.map (changed DgPv.device (generationStep num) t.generations)).map DgPv.device = pvs.map DgPv.device :=
    keys_same (changed_key (generation_device num) _) pvs
  have k2 : ((pvs.map (changed DgPv.device (generationStep num) t.generations)).map (changed DgPv.device (converterPv num) t.converters)).map DgPv.device =
      pvs.map DgPv.device :=
    (keys_same (changed_key (key := DgPv.device) (f := converterPv num) (fun _ _ => rfl) _) _).trans k1
  unfold allDg
  rw [hp]
  dsimp only
  rw [hs]
  dsimp only
  rw [allGenerations_map num _ _ hn hg]
  dsimp only
  rw [allConverters_map num _ _ _ (k1.symm ▸ hn) hm, allControls_map num _ _ (k2.symm ▸ hn), k1, List.map_map, List.map_map]
  rfl

/-- C119, the part that holds: each photovoltaic system and each storage of the file becomes one object, in the order of the file, at the first node of
its section, with the numbers of the rows of its device in watts: the last row that has a number decides, and without a number the attribute keeps its
first value. -/
theorem C119_dg_partial {num : Text → Option N} {secs : List (Text × Values)} {feeders : List (Text × Text)} {t : DgTables} {pds sds : List Text}
    (hp : DgEntries feeders t.photovoltaics pds) (hs : DgEntries feeders t.storages sds) (hd : ∀ d ∈ sds, d ∉ pds)
    (hg : DeviceKeys t.generations) (hc : DeviceKeys t.converters) (hk : DeviceKeys t.controls)
    (hm : ∀ r ∈ t.generations, ∃ d ∈ pds, SectionOf r.1 d) :
    ∃ pvs sts, allDg num secs feeders t = .ok (pvs, sts) ∧ List.Forall₂ (PvOk num secs feeders t) t.photovoltaics pvs ∧
      List.Forall₂ (StorageOk num secs feeders t) t.storages sts := by
  obtain ⟨pvs, hpv, hpk⟩ := pvs_built num secs hp.named hp.network
  obtain ⟨sts, hst, hsk⟩ := storages_built num secs t.bess hs.named hs.network
  have hgen : ∀ r ∈ t.generations, rowSection r.1 ∈ pvs.map DgPv.device := by
    intro r hr
    obtain ⟨d, hd', hrd⟩ := hm r hr
    rw [hpk, rowSection_of hrd]
    exact hd'
  refine ⟨_, _, all_dg hpv hst (hpk.symm ▸ hp.different) (hsk.symm ▸ hs.different) hgen, ?_, ?_⟩
  · rw [List.forall₂_map_right_iff]
    exact (Net.mapM_forall₂ hpv).imp fun e pv h => pv_ok h hg hc hk
  · rw [List.forall₂_map_right_iff]
    have h2 : ∀ s ∈ sts, s.device ∉ pvs.map DgPv.device := by
      intro s hs'
      rw [hpk]
      exact hd _ (hsk ▸ List.mem_map_of_mem hs')
    have h3 := Net.mapM_forall₂ hst
    clear hst hsk hgen
    generalize t.storages = es at h3
    clear hs
    induction h3 with
    | nil => exact .nil
    | cons h _ ih => exact .cons (storage_ok h hc (h2 _ List.mem_cons_self)) (ih fun s hs => h2 s (List.mem_cons_of_mem _ hs))


/-! ### what is not as in the file -/

omit [Field N] [LinearOrder N] in
theorem updateLast_get {A B : Type} {key : A → Text} {name : Text} {f : A → A} (get : A → B) (hg : ∀ a, get (f a) = get a) {l l' : List A}
    (h : updateLast key name f l = some l') : l'.map get = l.map get := by
  induction l generalizing l' with
  | nil => cases h
  | cons a as ih =>
    rw [updateLast] at h
    cases hu : updateLast key name f as with
    | some r =>
      rw [hu] at h
      cases h
      rw [List.map_cons, List.map_cons, ih hu]
    | none =>
      rw [hu] at h
      dsimp only at h
      by_cases ha : key a = name
      · rw [if_pos ha] at h
        cases h
        rw [List.map_cons, List.map_cons, hg]
      · rw [if_neg ha] at h
        cases h

omit [LinearOrder N] in
theorem allGenerations_get {B : Type} (num : Text → Option N) (get : DgPv N → B) (hg : ∀ r pv, get (generationStep num r pv) = get pv)
    {rows : List (Text × Values)} {pvs pvs' : List (DgPv N)} (h : allGenerations num rows pvs = .ok pvs') : pvs'.map get = pvs.map get := by
  induction rows generalizing pvs with
  | nil => cases h; rfl
  | cons r rows ih =>
    rw [allGenerations] at h
    cases hu : updateLast DgPv.device (rowSection r.1) (generationStep num r.2) pvs with
    | none => rw [hu] at h; cases h
    | some p =>
      rw [hu] at h
      exact (ih h).trans (updateLast_get get (hg r.2) hu)

omit [LinearOrder N] in
theorem allControls_get {B : Type} (num : Text → Option N) (get : DgPv N → B) (hg : ∀ r pv, get (controlStep num r pv) = get pv)
    (rows : List (Text × Values)) (pvs : List (DgPv N)) : (allControls num rows pvs).map get = pvs.map get := by
  induction rows generalizing pvs with
  | nil => rfl
  | cons r rows ih =>
    rw [allControls]
    cases hu : updateLast DgPv.device (rowSection r.1) (controlStep num r.2) pvs with
    | none => exact ih pvs
    | some p => exact (ih p).trans (updateLast_get get (hg r.2) hu)

omit [LinearOrder N] in
theorem allConverters_get {B C : Type} (num : Text → Option N) (get : DgPv N → B) (hg : ∀ r pv, get (converterPv num r pv) = get pv)
    (see : DgStorage N → C) (hs : ∀ r s, see (converterStorage num r s) = see s)
    (rows : List (Text × Values)) (s : List (DgPv N) × List (DgStorage N)) :
    (allConverters num rows s).1.map get = s.1.map get ∧ (allConverters num rows s).2.map see = s.2.map see := by
  induction rows generalizing s with
  | nil => exact ⟨rfl, rfl⟩
  | cons r rows ih =>
    rw [allConverters]
    cases hu : updateLast DgPv.device (rowSection r.1) (converterPv num r.2) s.1 with
    | some p =>
      obtain ⟨h1, h2⟩ := ih (p, s.2)
      exact ⟨h1.trans (updateLast_get get (hg r.2) hu), h2⟩
    | none =>
      dsimp only
      cases hv : updateLast DgStorage.device (rowSection r.1) (converterStorage num r.2) s.2 with
      | some q =>
        obtain ⟨h1, h2⟩ := ih (s.1, q)
        exact ⟨h1, h2.trans (updateLast_get see (hs r.2) hv)⟩
      | none => exact ih s

/-- what is the same in the objects after all tables -/
theorem allDg_get {B C : Type} {num : Text → Option N} {secs : List (Text × Values)} {feeders : List (Text × Text)} {t : DgTables}
    {pvs : List (DgPv N)} {sts : List (DgStorage N)} (h : allDg num secs feeders t = .ok (pvs, sts)) (get : DgPv N → B) (see : DgStorage N → C)
    (h1 : ∀ r pv, get (generationStep num r pv) = get pv) (h2 : ∀ r pv, get (converterPv num r pv) = get pv)
    (h3 : ∀ r pv, get (controlStep num r pv) = get pv) (h4 : ∀ r s, see (converterStorage num r s) = see s) :
    ∃ pvs' sts', t.photovoltaics.mapM (buildPv num secs feeders) = .ok pvs' ∧ t.storages.mapM (buildStorage num secs feeders t.bess) = .ok sts' ∧
      pvs.map get = pvs'.map get ∧ sts.map see = sts'.map see := by
  unfold allDg at h
  cases hp : t.photovoltaics.mapM (buildPv num secs feeders) with
  | error e => rw [hp] at h; cases h
  | ok pvs' =>
    rw [hp] at h
    dsimp only at h
    cases hs : t.storages.mapM (buildStorage num secs feeders t.bess) with
    | error e => rw [hs] at h; cases h
    | ok sts' =>
      rw [hs] at h
      dsimp only at h
      cases hg : allGenerations num t.generations pvs' with
      | error e => rw [hg] at h; cases h
      | ok p =>
        rw [hg] at h
        dsimp only at h
        have he := Prod.mk.inj (Except.ok.inj h)
        obtain ⟨c1, c2⟩ := allConverters_get num get h2 see h4 t.converters (p, sts')
        refine ⟨pvs', sts', rfl, rfl, ?_, ?_⟩
        · rw [← he.1, allControls_get num get h3, c1]
          exact allGenerations_get num get h1 hg
        · rw [← he.2]
          exact c2

/-- C119 is false of curves: whatever the settings of converters say, the curves of a photovoltaic system are the default ones. -/
theorem C119_curve_violated {num : Text → Option N} {secs : List (Text × Values)} {feeders : List (Text × Text)} {t : DgTables}
    {pvs : List (DgPv N)} {sts : List (DgStorage N)} (h : allDg num secs feeders t = .ok (pvs, sts)) :
    ∀ pv ∈ pvs, pv.voltvarCurve = "DEFAULT VOLT-VAR".toList ∧ pv.voltwattCurve = "DEFAULT VOLT-WATT".toList := by
  have keep : ∀ (r : Values) (b : Bool) (old : Text), assignCurve num r b old = old := by
    intro r b old
    unfold assignCurve
    cases floatAt num r "convertercontrolid".toList with
    | error e => rfl
    | ok x => cases b <;> rfl
  obtain ⟨pvs', -, hb, -, hm, -⟩ := allDg_get h (fun pv => (pv.voltvarCurve, pv.voltwattCurve)) (fun _ => ())
    (by intro r pv; unfold generationStep; split <;> rfl) (fun _ _ => rfl) (by
      intro r pv
      unfold controlStep
      dsimp only
      rw [keep, keep]) (fun _ _ => rfl)
  intro pv hpv
  have hin : (pv.voltvarCurve, pv.voltwattCurve) ∈ pvs'.map fun pv => (pv.voltvarCurve, pv.voltwattCurve) :=
    hm ▸ List.mem_map_of_mem (f := fun pv : DgPv N => (pv.voltvarCurve, pv.voltwattCurve)) hpv
  obtain ⟨q, hq, he⟩ := List.mem_map.mp hin
  have hq' : q.voltvarCurve = "DEFAULT VOLT-VAR".toList ∧ q.voltwattCurve = "DEFAULT VOLT-WATT".toList := by
    obtain ⟨e, -, hbe⟩ : ∃ e ∈ t.photovoltaics, buildPv num secs feeders e = .ok q := by
      have hf := Net.mapM_forall₂ hb
      clear hb hm hin he h
      generalize t.photovoltaics = es at hf
      induction hf with
      | nil => cases hq
      | @cons e p es ps hep _ ih =>
        rcases List.mem_cons.mp hq with rfl | hq
        · exact ⟨e, List.mem_cons_self, hep⟩
        · obtain ⟨e', he', hbe⟩ := ih hq
          exact ⟨e', List.mem_cons_of_mem _ he', hbe⟩
    unfold buildPv at hbe
    cases hd : getEntry "devicenumber".toList e.2 with
    | none => rw [hd] at hbe; cases hbe
    | some d =>
      rw [hd] at hbe
      dsimp only at hbe
      cases hf : getEntry (lower e.1) feeders with
      | none => rw [hf] at hbe; cases hbe
      | some f =>
        rw [hf] at hbe
        dsimp only at hbe
        rw [← Except.ok.inj hbe]
        exact ⟨rfl, rfl⟩
  have he' := Prod.mk.inj he
  exact ⟨he'.1 ▸ hq'.1, he'.2 ▸ hq'.2⟩

/-- C119 is false of reserves and of phases of storages: the part of the energy that is held in reserve is the state of charge of a full storage, and a
code of phases is one phase of this name. -/
theorem C119_storage_violated {num : Text → Option N} {secs : List (Text × Values)} {feeders : List (Text × Text)} {t : DgTables}
    {pvs : List (DgPv N)} {sts : List (DgStorage N)} (h : allDg num secs feeders t = .ok (pvs, sts)) :
    List.Forall₂ (fun e s => s.reserve = numberIn num e.2 "maximumsoc".toList ∧
      ∀ c, getEntry "phase".toList e.2 = some [c] → s.phases.map (·.1) = [c]) t.storages sts := by
  obtain ⟨-, sts', -, hb, -, hm⟩ := allDg_get h (fun _ => ()) (fun s => (s.reserve, s.phases))
    (fun _ _ => rfl) (fun _ _ => rfl) (fun _ _ => rfl) (fun _ _ => rfl)
  have key : List.Forall₂ (fun e x => x.1 = numberIn num e.2 "maximumsoc".toList ∧
      ∀ c, getEntry "phase".toList e.2 = some [c] → x.2.map (·.1) = [c]) t.storages (sts.map fun s => (s.reserve, s.phases)) := by
    rw [hm, List.forall₂_map_right_iff]
    refine (Net.mapM_forall₂ hb).imp fun e s hbe => ?_
    unfold buildStorage at hbe
    cases hd : getEntry "devicenumber".toList e.2 with
    | none => rw [hd] at hbe; cases hbe
    | some d =>
      rw [hd] at hbe
      dsimp only at hbe
      cases hf : getEntry (lower e.1) feeders with
      | none => rw [hf] at hbe; cases hbe
      | some f =>
        rw [hf] at hbe
        dsimp only at hbe
        rw [← Except.ok.inj hbe]
        refine ⟨keepOr_none .., fun c hc => ?_⟩
        dsimp only
        unfold storagePhases
        rw [hc]
        rfl
  exact List.forall₂_map_right_iff.mp key

/-- C119 is false if a photovoltaic system and a storage have the same number: the storage has no ratings, whatever the converters say. -/
theorem C119_shared_violated {num : Text → Option N} {secs : List (Text × Values)} {feeders : List (Text × Text)} {t : DgTables} {pds sds : List Text}
    (hp : DgEntries feeders t.photovoltaics pds) (hs : DgEntries feeders t.storages sds) (hm : ∀ r ∈ t.generations, ∃ d ∈ pds, SectionOf r.1 d) :
    ∃ pvs sts, allDg num secs feeders t = .ok (pvs, sts) ∧ sts.map DgStorage.device = sds ∧
      ∀ s ∈ sts, s.device ∈ pds → s.rated = none ∧ s.reactive = none := by
  obtain ⟨pvs, hpv, hpk⟩ := pvs_built num secs hp.named hp.network
  obtain ⟨sts, hst, hsk⟩ := storages_built num secs t.bess hs.named hs.network
  have hgen : ∀ r ∈ t.generations, rowSection r.1 ∈ pvs.map DgPv.device := by
    intro r hr
    obtain ⟨d, hd', hrd⟩ := hm r hr
    rw [hpk, rowSection_of hrd]
    exact hd'
  have hkey : ∀ s : DgStorage N, (changed DgStorage.device (converterStorage num) (restOf (pvs.map DgPv.device) t.converters) s).device = s.device :=
    changed_key (key := DgStorage.device) (f := converterStorage num) (fun _ _ => rfl) _
  refine ⟨_, _, all_dg hpv hst (hpk.symm ▸ hp.different) (hsk.symm ▸ hs.different) hgen, (keys_same hkey sts).trans hsk, fun s hs' hd => ?_⟩
  obtain ⟨s0, h0, rfl⟩ := List.mem_map.mp hs'
  rw [hkey] at hd
  have hnil : rowsAt s0.device (restOf (pvs.map DgPv.device) t.converters) = [] := by
    unfold rowsAt restOf
    rw [List.map_eq_nil_iff, List.filter_eq_nil_iff]
    intro r hr hh
    have h1 := of_decide_eq_true (List.mem_filter.mp hr).2
    rw [of_decide_eq_true hh, hpk] at h1
    exact h1 hd
  have hsame : changed DgStorage.device (converterStorage num) (restOf (pvs.map DgPv.device) t.converters) s0 = s0 := by
    unfold changed
    rw [hnil]
    rfl
  rw [hsame]
  obtain ⟨e, hbe⟩ : ∃ e, buildStorage num secs feeders t.bess e = .ok s0 := by
    have hf := Net.mapM_forall₂ hst
    clear hst hsk hs' hs
    generalize t.storages = es at hf
    induction hf with
    | nil => cases h0
    | @cons e p es ps hep _ ih =>
      rcases List.mem_cons.mp h0 with rfl | hq
      · exact ⟨e, hep⟩
      · exact ih hq
  unfold buildStorage at hbe
  cases hdv : getEntry "devicenumber".toList e.2 with
  | none => rw [hdv] at hbe; cases hbe
  | some d =>
    rw [hdv] at hbe
    dsimp only at hbe
    cases hf : getEntry (lower e.1) feeders with
    | none => rw [hf] at hbe; cases hbe
    | some f =>
      rw [hf] at hbe
      dsimp only at hbe
      rw [← Except.ok.inj hbe]
      exact ⟨rfl, rfl⟩

omit [LinearOrder N] in
theorem allGenerations_missing (num : Text → Option N) {rows : List (Text × Values)} {pvs : List (DgPv N)} {r : Text × Values} (hr : r ∈ rows)
    (h : rowSection r.1 ∉ pvs.map DgPv.device) : allGenerations num rows pvs = .error .keyError := by
  induction rows generalizing pvs with
  | nil => cases hr
  | cons q rows ih =>
    rw [allGenerations]
    cases hu : updateLast DgPv.device (rowSection q.1) (generationStep num q.2) pvs with
    | none => rfl
    | some p =>
      have hk := updateLast_get DgPv.device (generation_device num q.2) hu
      dsimp only
      rcases List.mem_cons.mp hr with rfl | hr
      · rw [updateLast_none h] at hu
        cases hu
      · exact ih hr (hk ▸ h)

/-- C119 is false if a generation model belongs to a device that is not a photovoltaic system, a storage for example: the reader stops. -/
theorem C119_generation_violated {num : Text → Option N} {secs : List (Text × Values)} {feeders : List (Text × Text)} {t : DgTables}
    {pds sds : List Text} (hp : DgEntries feeders t.photovoltaics pds) (hs : DgEntries feeders t.storages sds) {r : Text × Values} {d : Text}
    (hr : r ∈ t.generations) (hd : SectionOf r.1 d) (hno : d ∉ pds) : allDg num secs feeders t = .error .keyError := by
  obtain ⟨pvs, hpv, hpk⟩ := pvs_built num secs hp.named hp.network
  obtain ⟨sts, hst, -⟩ := storages_built num secs t.bess hs.named hs.network
  have hgen : rowSection r.1 ∉ pvs.map DgPv.device := by
    rw [hpk, rowSection_of hd]
    exact hno
  unfold allDg
  rw [hpv]
  dsimp only
  rw [hst]
  dsimp only
  rw [allGenerations_missing num hr hgen]

theorem first_error {A B : Type} {f : A → Py B} {l : List A} {e : PyErr} (hall : ∀ x ∈ l, ∀ y, f x = .error y → y = e) {a : A} (ha : a ∈ l)
    (h : f a = .error e) : l.mapM f = .error e := by
  induction l with
  | nil => cases ha
  | cons x l ih =>
    rw [List.mapM_cons]
    cases hx : f x with
    | error y =>
      rw [hall x List.mem_cons_self y hx]
      rfl
    | ok b =>
      rcases List.mem_cons.mp ha with rfl | ha
      · rw [h] at hx
        cases hx
      · rw [ih (fun z hz => hall z (List.mem_cons_of_mem _ hz)) ha]
        rfl

/-- C119: an entry without a device, or a section without a network, stops the reader with a `ValueError`. -/
theorem C119_errors (num : Text → Option N) (secs : List (Text × Values)) (feeders : List (Text × Text)) (t : DgTables) {e : Text × Values}
    (hb : getEntry "devicenumber".toList e.2 = none ∨ getEntry (e.1.map Char.toLower) feeders = none)
    (he : e ∈ t.photovoltaics ∨ e ∈ t.storages) : allDg num secs feeders t = .error .valueError := by
  have p1 : ∀ (x : Text × Values) (y : PyErr), (buildPv num secs feeders x : Py (DgPv N)) = .error y → y = .valueError := by
    intro x y h
    unfold buildPv at h
    cases hd : getEntry "devicenumber".toList x.2 with
    | none => rw [hd] at h; cases h; rfl
    | some d =>
      rw [hd] at h
      dsimp only at h
      cases hf : getEntry (lower x.1) feeders with
      | none => rw [hf] at h; cases h; rfl
      | some f => rw [hf] at h; cases h
  have p2 : (buildPv num secs feeders e : Py (DgPv N)) = .error .valueError := by
    unfold buildPv
    rcases hb with hb | hb
    · rw [hb]
    · cases getEntry "devicenumber".toList e.2 with
      | none => rfl
      | some d => dsimp only; rw [show getEntry (lower e.1) feeders = none from hb]
  have s1 : ∀ (x : Text × Values) (y : PyErr), (buildStorage num secs feeders t.bess x : Py (DgStorage N)) = .error y → y = .valueError := by
    intro x y h
    unfold buildStorage at h
    cases hd : getEntry "devicenumber".toList x.2 with
    | none => rw [hd] at h; cases h; rfl
    | some d =>
      rw [hd] at h
      dsimp only at h
      cases hf : getEntry (lower x.1) feeders with
      | none => rw [hf] at h; cases h; rfl
      | some f => rw [hf] at h; cases h
  have s2 : (buildStorage num secs feeders t.bess e : Py (DgStorage N)) = .error .valueError := by
    unfold buildStorage
    rcases hb with hb | hb
    · rw [hb]
    · cases getEntry "devicenumber".toList e.2 with
      | none => rfl
      | some d => dsimp only; rw [show getEntry (lower e.1) feeders = none from hb]
  unfold allDg
  cases hm : t.photovoltaics.mapM (buildPv num secs feeders) with
  | error y =>
    have : ∀ (l : List (Text × Values)), l.mapM (buildPv num secs feeders) = .error y → y = .valueError := by
      intro l
      induction l with
      | nil => intro h; cases h
      | cons x l ih =>
        intro h
        rw [List.mapM_cons] at h
        cases hx : (buildPv num secs feeders x : Py (DgPv N)) with
        | error z =>
          rw [hx] at h
          cases h
          exact p1 x _ hx
        | ok b =>
          rw [hx] at h
          cases hl : l.mapM (buildPv num secs feeders) with
          | error z =>
            rw [hl] at h
            exact ih (by rw [hl]; cases h; rfl)
          | ok bs => rw [hl] at h; cases h
    rw [this _ hm]
  | ok pvs =>
    dsimp only
    rcases he with he | he
    · rw [first_error (fun x _ => p1 x) he p2] at hm
      cases hm
    · rw [first_error (fun x _ => s1 x) he s2]

/-- C119 is false if a section has two photovoltaic systems, or two storages: the second one has a star behind the name of the section, no network has a
section of this name, and the reader stops. -/
theorem C119_duplicate_violated (num : Text → Option N) (secs : List (Text × Values)) (feeders : List (Text × Text)) (t : DgTables) {k : Text} {v : Values}
    (he : (k ++ ['*'], v) ∈ t.photovoltaics ∨ (k ++ ['*'], v) ∈ t.storages) (hf : ∀ f ∈ feeders, ∀ s, f.1 ≠ s ++ ['*']) :
    allDg num secs feeders t = .error .valueError := by
  refine C119_errors num secs feeders t (.inr ?_) he
  rw [show (k ++ ['*'], v).1.map Char.toLower = k.map Char.toLower ++ ['*'] from List.map_append]
  refine getEntry_none.mpr fun hk => ?_
  obtain ⟨f, hf', hh⟩ := List.mem_map.mp hk
  exact hf f hf' _ hh


end

/-! ### examples -/

/-- a file with a photovoltaic system and a storage -/
def dgFile : List Text :=
  ["[PHOTOVOLTAIC SETTINGS]\n", "FORMAT_PHOTOVOLTAICSETTING=SectionID,DeviceNumber,EqPhase,AmbientTemperature\n", "S1,P1,ABC,2\n", "\n",
    "[BESS SETTINGS]\n", "FORMAT_BESSSETTING=SectionID,DeviceNumber,EquipmentID,Phase,MaximumSOC,MinimumSOC,InitialSOC\n", "S2,B1,bat,7,9,2,5\n", "\n",
    "[CONVERTER]\n", "FORMAT_CONVERTER=DeviceNumber,DeviceType,ActivePowerRating,ReactivePowerRating,MinimumPowerFactor,PowerFallLimit,PowerRiseLimit\n",
    "P1,45,3,2,9,8,9\n", "B1,83,5,4,8,8,9\n", "X1,83,5,4,8,8,9\n", "\n",
    "[CONVERTER CONTROL SETTING]\n", "FORMAT_CONVERTERCONTROLSETTING=DeviceNumber,DeviceType,ControlType,FixedVarInjection,ConverterControlID,PowerFactor\n",
    "P1,45,1,5,7,7\n", "P1,45,4,x,7,x\n", "\n",
    "[DGGENERATIONMODEL]\n", "FORMAT_DGGENERATIONMODEL=DeviceNumber,DeviceType,LoadModelName,ActiveGeneration,PowerFactor\n",
    "P1,45,DEFAULT,6,8\n", "P1,45,SUMMER,7,9\n"].map String.toList

/-- the equipment -/
def dgEquipment : List Text :=
  ["[BESS]\n", "FORMAT_BESS=ID,RatedStorageEnergy,MaxChargingPower,MaxDischargingPower\n", "bat,4,8,6\n"].map String.toList

def dgSections : List (Text × Values) :=
  [("s1".toList, [("fromnodeid".toList, "n1".toList), ("tonodeid".toList, "n2".toList)]),
    ("s2".toList, [("fromnodeid".toList, "n2".toList), ("tonodeid".toList, "n3".toList)])]

def dgFeeders : List (Text × Text) := [("s1".toList, "f".toList), ("s2".toList, "g".toList)]

/-- the photovoltaic system -/
def dgPv : DgPv ℚ where
  name := "PV_p1".toList
  device := "p1".toList
  feeder := "f".toList
  node := some "n1".toList
  temperature := some 2
  phases := "ABC".toList
  active := some 6000
  powerFactor := 7 / 100
  rated := some 3000
  reactive := some 2000
  fall := some 8
  rise := some 9
  control := some "voltvar_vars_over_watts".toList
  injection := 5

/-- the storage -/
def dgStorage : DgStorage ℚ where
  name := "BESS_b1".toList
  device := "b1".toList
  feeder := "g".toList
  node := some "n2".toList
  phases := [('7', some 6000)]
  energy := some 4
  reserve := some 9
  stored := some (20 / 100)
  rated := some 5000
  reactive := some 4000
  minPowerFactor := some (8 / 100)

/-- what is read of the file -/
example : (parseDg fractionOf dgSections dgFeeders dgFile dgEquipment).toOption = some ([dgPv], [dgStorage]) := by decide +kernel

/-- a second photovoltaic system in the section: nothing is read -/
example : parseDg fractionOf dgSections dgFeeders
    (["[PHOTOVOLTAIC SETTINGS]\n", "FORMAT_PHOTOVOLTAICSETTING=SectionID,DeviceNumber,EqPhase\n", "S1,P1,A\n", "S1,P2,B\n"].map String.toList)
    dgEquipment = .error .valueError := by
  have : (parseDg fractionOf dgSections dgFeeders
    (["[PHOTOVOLTAIC SETTINGS]\n", "FORMAT_PHOTOVOLTAICSETTING=SectionID,DeviceNumber,EqPhase\n", "S1,P1,A\n", "S1,P2,B\n"].map String.toList)
    dgEquipment).toOption = none := by decide +kernel
  rfl

/-- the dictionaries of the first file, in part -/
def dgTables : DgTables where
  photovoltaics := [("S1".toList, [("devicenumber".toList, "P1".toList), ("eqphase".toList, "ABC".toList)])]
  storages := [("S2".toList, [("devicenumber".toList, "B1".toList), ("phase".toList, "7".toList), ("maximumsoc".toList, "5".toList)])]
  converters := [("P1".toList, [("activepowerrating".toList, "3".toList)]), ("P1*".toList, [("activepowerrating".toList, "4".toList)]),
    ("B1".toList, [("activepowerrating".toList, "5".toList)])]
  generations := [("P1".toList, [("loadmodelname".toList, "Default".toList), ("activegeneration".toList, "6".toList)])]

theorem dgPv_entries : DgEntries dgFeeders dgTables.photovoltaics ["p1".toList] :=
  ⟨.cons ⟨"P1".toList, by decide, by decide⟩ .nil, by decide, by
    intro e he
    rw [List.mem_singleton.mp he]
    exact ⟨"f".toList, by decide⟩⟩

theorem dgStorage_entries : DgEntries dgFeeders dgTables.storages ["b1".toList] :=
  ⟨.cons ⟨"B1".toList, by decide, by decide⟩ .nil, by decide, by
    intro e he
    rw [List.mem_singleton.mp he]
    exact ⟨"g".toList, by decide⟩⟩

theorem dgKeys : DeviceKeys dgTables.generations ∧ DeviceKeys dgTables.converters ∧ DeviceKeys dgTables.controls := by
  refine ⟨?_, ?_, ?_⟩
  · intro e he
    rw [List.mem_singleton.mp he]
    exact ⟨"p1".toList, "P1".toList, 0, by decide, by decide, by decide⟩
  · intro e he
    rcases List.mem_cons.mp he with rfl | he
    · exact ⟨"p1".toList, "P1".toList, 0, by decide, by decide, by decide⟩
    rcases List.mem_cons.mp he with rfl | he
    · exact ⟨"p1".toList, "P1".toList, 1, by decide, by decide, by decide⟩
    rw [List.mem_singleton.mp he]
    exact ⟨"b1".toList, "B1".toList, 0, by decide, by decide, by decide⟩
  · intro e he
    cases he

/-- the hypotheses of the theorem are met -/
example : ∃ pvs sts, allDg fractionOf dgSections dgFeeders dgTables = .ok (pvs, sts) ∧
    List.Forall₂ (PvOk fractionOf dgSections dgFeeders dgTables) dgTables.photovoltaics pvs ∧
    List.Forall₂ (StorageOk fractionOf dgSections dgFeeders dgTables) dgTables.storages sts :=
  C119_dg_partial dgPv_entries dgStorage_entries (by decide) dgKeys.1 dgKeys.2.1 dgKeys.2.2 (by
    intro r hr
    rw [List.mem_singleton.mp hr]
    exact ⟨"p1".toList, by decide, "P1".toList, 0, by decide, by decide, by decide⟩)

/-- with a generation model of the storage nothing is read -/
example : allDg fractionOf dgSections dgFeeders { dgTables with generations := [("B1".toList, [])] } = .error .keyError :=
  C119_generation_violated (t := { dgTables with generations := [("B1".toList, [])] }) dgPv_entries dgStorage_entries List.mem_cons_self
    (d := "b1".toList) ⟨"B1".toList, 0, by decide, by decide, by decide⟩ (by decide)

/-- the storage has the number of the photovoltaic system -/
def dgShared : DgTables :=
  { dgTables with storages := [("S2".toList, [("devicenumber".toList, "P1".toList)])] }

theorem dgShared_entries : DgEntries dgFeeders dgShared.storages ["p1".toList] :=
  ⟨.cons ⟨"P1".toList, by decide, by decide⟩ .nil, by decide, by
    intro e he
    rw [List.mem_singleton.mp he]
    exact ⟨"g".toList, by decide⟩⟩

/-- it has no rating -/
example : ((allDg fractionOf dgSections dgFeeders dgShared).toOption.map fun r => (r.1.map DgPv.rated, r.2.map DgStorage.rated)) =
    some ([some (4000 : ℚ)], [none]) := by decide +kernel

example : ∃ pvs sts, allDg fractionOf dgSections dgFeeders dgShared = .ok (pvs, sts) ∧ sts.map DgStorage.device = ["p1".toList] ∧
    ∀ s ∈ sts, s.device ∈ ["p1".toList] → s.rated = none ∧ s.reactive = none :=
  C119_shared_violated (t := dgShared) dgPv_entries dgShared_entries (by
    intro r hr
    rw [List.mem_singleton.mp hr]
    exact ⟨"p1".toList, by decide, "P1".toList, 0, by decide, by decide, by decide⟩)

/-- a section with two photovoltaic systems -/
example : allDg fractionOf dgSections dgFeeders { dgTables with photovoltaics := [("S1*".toList, [("devicenumber".toList, "P2".toList)])] } =
    .error .valueError :=
  C119_duplicate_violated fractionOf dgSections dgFeeders { dgTables with photovoltaics := [("S1*".toList, [("devicenumber".toList, "P2".toList)])] }
    (k := "S1".toList) (v := [("devicenumber".toList, "P2".toList)]) (.inl (by decide)) (by
      intro f hf s hs
      have h : (f.1.reverse.head? = some '*') := by rw [hs, List.reverse_append]; rfl
      exact (show ∀ f ∈ dgFeeders, f.1.reverse.head? ≠ some '*' by decide) f hf h)

/-- Without a format the columns are at their positions: the cell of column `i` has the digits of `i`. -/
def dgCells : Text := "D1".toList ++ ((List.range 26).map fun i => ',' :: (Nat.repr (i + 1)).toList).flatten ++ ['\n']

/-- tables with the positions of their columns -/
def dgPositions : List (Query × String × List (String × Nat)) :=
  [(converterQuery, "[CONVERTER]\n", [("activepowerrating", 3), ("reactivepowerrating", 4), ("minimumpowerfactor", 5), ("powerfalllimit", 23), ("powerriselimit", 24)]),
    (controlQuery, "[CONVERTER CONTROL SETTING]\n", [("controltype", 4), ("fixedvarinjection", 5), ("convertercontrolid", 7), ("powerfactor", 9)]),
    (photovoltaicQuery, "[PHOTOVOLTAIC SETTINGS]\n", [("devicenumber", 2), ("eqphase", 7), ("ambienttemperature", 11)]),
    (photovoltaicQuery, "[ELECTRONIC CONVERTER GENERATOR SETTING]\n", [("devicenumber", 2), ("eqphase", 7)]),
    (storageSettingQuery, "[BESS SETTINGS]\n", [("devicenumber", 2), ("equipmentid", 6), ("phase", 7), ("maximumsoc", 10), ("minimumsoc", 11), ("initialsoc", 16)]),
    (generationQuery, "[DGGENERATIONMODEL]\n", [("loadmodelname", 2), ("activegeneration", 3), ("powerfactor", 4)]),
    (storageQuery, "[BESS]\n", [("ratedstorageenergy", 1), ("maxchargingpower", 2), ("maxdischargingpower", 3)])]

/-- the texts of the columns -/
example : ∀ q ∈ dgPositions, (readMany [q.1] [q.2.1.toList, dgCells]).toOption.map (fun ts =>
    ts.flatten.map fun e => q.2.2.map fun c => getEntry c.1.toList e.2) = some [q.2.2.map fun c => some (Nat.repr c.2).toList] := by decide +kernel

/-- two photovoltaic systems with one number, in two sections: the second one has all the data -/
def dgTwice : DgTables :=
  { dgTables with
    photovoltaics := [("S1".toList, [("devicenumber".toList, "P1".toList)]), ("S2".toList, [("devicenumber".toList, "p1".toList)])], storages := [] }

example : ((allDg fractionOf dgSections dgFeeders dgTwice).toOption.map fun r => r.1.map fun pv => (pv.node, pv.rated, pv.active)) =
    some [(some "n1".toList, none, none), (some "n2".toList, some (4000 : ℚ), some 6000)] := by decide +kernel

end Ditto.Cyme
