import Verif.Lemmas.DssVoltages
import Mathlib.Algebra.Field.Rat

/-! C66: nominal voltages after reading OpenDSS files. -/
namespace Ditto.Dss
open Ditto Ditto.Spec

/-- The object that has the name of a bus in small letters has the base voltage of that bus at the end, line to line and in volts. -/
theorem C66_buses {K : Type} [Field K] (s3 : K) (objs : List (VObj K)) (bs : List (String × K)) (n : String) (kv : K) (i : Nat)
    (hi : Holds objs (some n) i) (hb : BusBase bs n kv) : setVoltages s3 objs bs i = some (some (kv * s3 * 1000)) := by
  unfold setVoltages
  have := setBuses_bus s3 hi hb fun i => (objs[i]?).bind (·.volt)
  rw [fold_given _ _ (by rw [this]; simp), this]

/-- An object with a voltage that does not have the name of a bus keeps its voltage. -/
theorem C66_kept {K : Type} [Field K] (s3 : K) (objs : List (VObj K)) (bs : List (String × K)) (i : Nat) (o : VObj K) (x : K)
    (ho : objs[i]? = some o) (hx : o.volt = some (some x)) (hi : ∀ b ∈ bs, ¬ Holds objs (some (pyLower b.1)) i) :
    setVoltages s3 objs bs i = some (some x) := by
  have : setBuses s3 objs bs (fun i => (objs[i]?).bind (·.volt)) i = some (some x) := by
    rw [setBuses_other s3 hi, ho]
    exact hx
  unfold setVoltages
  rw [fold_given _ _ (by rw [this]; simp), this]

theorem nodeLike_volt {K : Type} [Field K] (s3 : K) {objs : List (VObj K)} (bs : List (String × K)) {j : Nat} (h : NodeLike objs j) :
    setVoltages s3 objs bs j = setBuses s3 objs bs (fun i => (objs[i]?).bind (·.volt)) j ∧
    ∀ l : List Nat, l.foldl (objStep objs) (setBuses s3 objs bs fun i => (objs[i]?).bind (·.volt)) j = setVoltages s3 objs bs j := by
  have := fun l : List Nat => fold_same (j := j) l (fun i _ v => nodeLike_step h i v) (setBuses s3 objs bs fun i => (objs[i]?).bind (·.volt))
  refine ⟨this _, fun l => ?_⟩
  rw [this l]
  exact (this _).symm

theorem nodeLike_attr {K : Type} [Field K] (s3 : K) {objs : List (VObj K)} (bs : List (String × K)) {j : Nat} (h : NodeLike objs j) :
    ∃ x, setVoltages s3 objs bs j = some x := by
  rw [(nodeLike_volt s3 bs h).1, setBuses_eq]
  obtain ⟨o, ho, -, -, -, hv⟩ := h.1
  split
  · obtain ⟨x, hx⟩ := Option.ne_none_iff_exists'.1 hv
    exact ⟨x, by rw [ho]; exact hx⟩
  · exact ⟨_, rfl⟩

theorem takeVolt_some {K : Type} {objs : List (VObj K)} {i j : Nat} {n : Option String} {v : Volts K} {x : Option K} (hj : Holds objs n j) (hx : v j = some x) :
    takeVolt objs i n v i = some x := by
  unfold takeVolt
  rw [lastNamed_iff.2 hj]
  simp only [Option.bind_some]
  rw [hx]
  exact setVolt_self _ _ _

/-- An object without voltage takes the one of the node it is connected to: of its connecting element, or, if it is one with two ends, of the
first. -/
theorem C66_connected {K : Type} [Field K] (s3 : K) (objs : List (VObj K)) (bs : List (String × K)) (i j : Nat) (o : VObj K) (c : Option String)
    (ho : objs[i]? = some o) (hx : o.volt = some none) (hi : ∀ b ∈ bs, ¬ Holds objs (some (pyLower b.1)) i) (hw : ∀ o' ∈ objs, i ∉ o'.windings)
    (hc : o.conn = some c ∨ (o.conn = none ∧ o.hasFrom = true ∧ o.fromName = c)) (hj : Holds objs c j) (hn : NodeLike objs j) :
    setVoltages s3 objs bs i = setVoltages s3 objs bs j := by
  have hlen := (List.getElem?_eq_some_iff.1 ho).1
  have h0 : setBuses s3 objs bs (fun i => (objs[i]?).bind (·.volt)) i = some none := by
    rw [setBuses_other s3 hi, ho]
    exact hx
  have hall : ∀ k, k ≠ i → ∀ v : Volts K, objStep objs v k i = v i := fun k hk v =>
    objStep_other (Ne.symm hk) (fun o' ho' x _ h => hw o' (List.mem_of_getElem? ho') (List.mem_of_getElem? h)) v
  obtain ⟨h1, h2⟩ := fold_once hlen hall (setBuses s3 objs bs fun i => (objs[i]?).bind (·.volt))
  rw [h0] at h2
  obtain ⟨x, hxj⟩ := nodeLike_attr s3 bs hn
  have hxj' := (nodeLike_volt s3 bs hn).2 (List.range i)
  rw [hxj] at hxj'
  rw [hxj]
  unfold setVoltages
  rw [h1]
  rcases objStep_cases objs ((List.range i).foldl (objStep objs) (setBuses s3 objs bs fun i => (objs[i]?).bind (·.volt))) i with
    ⟨h', -⟩ | ⟨o', ho', ⟨-, h'⟩ | ⟨hne, -, -⟩ | ⟨hne, -, -⟩⟩
  · rw [ho] at h'; exact absurd h' (by simp)
  · rw [ho] at ho'
    obtain rfl := Option.some.inj ho'
    rw [h']
    unfold takeOwn
    rcases hc with hc | ⟨hc, hf, rfl⟩
    · rw [hc]; exact takeVolt_some hj hxj'
    · rw [hc, hf]
      simp only [if_true]
      exact takeVolt_some hj hxj'
  · exact absurd h2 hne
  · exact absurd h2 hne

/-- An object connected to no named object stays without voltage. -/
theorem C66_unconnected {K : Type} [Field K] (s3 : K) (objs : List (VObj K)) (bs : List (String × K)) (i : Nat) (o : VObj K) (c : Option String)
    (ho : objs[i]? = some o) (hx : o.volt = some none) (hi : ∀ b ∈ bs, ¬ Holds objs (some (pyLower b.1)) i) (hw : ∀ o' ∈ objs, i ∉ o'.windings)
    (hc : o.conn = some c) (hj : ∀ o' ∈ objs, o'.name ≠ some c) : setVoltages s3 objs bs i = some none := by
  have hlen := (List.getElem?_eq_some_iff.1 ho).1
  have h0 : setBuses s3 objs bs (fun i => (objs[i]?).bind (·.volt)) i = some none := by
    rw [setBuses_other s3 hi, ho]
    exact hx
  have hall : ∀ k, k ≠ i → ∀ v : Volts K, objStep objs v k i = v i := fun k hk v =>
    objStep_other (Ne.symm hk) (fun o' ho' x _ h => hw o' (List.mem_of_getElem? ho') (List.mem_of_getElem? h)) v
  obtain ⟨h1, h2⟩ := fold_once hlen hall (setBuses s3 objs bs fun i => (objs[i]?).bind (·.volt))
  rw [h0] at h2
  unfold setVoltages
  rw [h1]
  rcases objStep_cases objs ((List.range i).foldl (objStep objs) (setBuses s3 objs bs fun i => (objs[i]?).bind (·.volt))) i with
    ⟨h', -⟩ | ⟨o', ho', ⟨-, h'⟩ | ⟨hne, -, -⟩ | ⟨hne, -, -⟩⟩
  · rw [ho] at h'; exact absurd h' (by simp)
  · rw [ho] at ho'
    obtain rfl := Option.some.inj ho'
    have hnone : lastNamed objs c = none := by
      cases hl : lastNamed objs c with
      | none => rfl
      | some k =>
        obtain ⟨⟨o'', ho'', hn⟩, -⟩ := lastNamed_iff.1 hl
        exact absurd hn (hj o'' (List.mem_of_getElem? ho''))
    rw [h']
    unfold takeOwn takeVolt
    rw [hc]
    simp only [hnone, Option.bind_none]
    exact h2
  · exact absurd h2 hne
  · exact absurd h2 hne

theorem winding_other {K : Type} {objs : List (VObj K)} {i w : Nat} {x : Nat} (hw : ∀ k o', objs[k]? = some o' → ∀ y, o'.windings[y]? = some w → k = i ∧ y = x)
    {ow : VObj K} (how : objs[w]? = some ow) (hplain : ow.conn = none ∧ ow.hasFrom = false ∧ ow.isTrafo = false) :
    ∀ k, k ≠ i → ∀ v : Volts K, objStep objs v k w = v w := by
  intro k hk v
  by_cases hkw : w = k
  · subst hkw
    refine objStep_self (fun o' ho' => ?_) v
    rw [how] at ho'
    obtain rfl := Option.some.inj ho'
    exact hplain
  · exact objStep_other hkw (fun o' ho' y _ h => hk (hw k o' ho' y h).1) v

/-- A winding without voltage of a transformer or regulator takes the voltage of the node of its side: the first one that of the first end,
the second and third ones that of the second. -/
theorem C66_windings {K : Type} [Field K] (s3 : K) (objs : List (VObj K)) (bs : List (String × K)) (i w x j : Nat) (o ow : VObj K)
    (ho : objs[i]? = some o) (ht : o.isTrafo = true) (hov : o.volt = none) (hoi : ∀ b ∈ bs, ¬ Holds objs (some (pyLower b.1)) i)
    (hoi' : ∀ o' ∈ objs, i ∉ o'.windings) (hox : o.windings[x]? = some w) (hx2 : x ≤ 2)
    (hw : ∀ k o', objs[k]? = some o' → ∀ y, o'.windings[y]? = some w → k = i ∧ y = x)
    (how : objs[w]? = some ow) (hplain : ow.conn = none ∧ ow.hasFrom = false ∧ ow.isTrafo = false) (hwn : ow.name = none) (hwv : ow.volt = some none)
    (hj : Holds objs (if x = 0 then o.fromName else o.toName) j) (hn : NodeLike objs j) :
    setVoltages s3 objs bs w = setVoltages s3 objs bs j := by
  have hlen := (List.getElem?_eq_some_iff.1 ho).1
  have hall := winding_other hw how hplain
  obtain ⟨h1, h2⟩ := fold_once hlen hall (setBuses s3 objs bs fun i => (objs[i]?).bind (·.volt))
  have h0 : setBuses s3 objs bs (fun i => (objs[i]?).bind (·.volt)) w = some none := by
    rw [setBuses_other s3, how]
    · exact hwv
    · rintro b - ⟨⟨o', ho', hn'⟩, -⟩
      rw [how] at ho'
      obtain rfl := Option.some.inj ho'
      rw [hwn] at hn'
      exact absurd hn' (by simp)
  rw [h0] at h2
  obtain ⟨z, hz⟩ := nodeLike_attr s3 bs hn
  have hz' := (nodeLike_volt s3 bs hn).2 (List.range i)
  rw [hz] at hz' ⊢
  have hself : (List.range i).foldl (objStep objs) (setBuses s3 objs bs fun i => (objs[i]?).bind (·.volt)) i ≠ some none := by
    have : setBuses s3 objs bs (fun i => (objs[i]?).bind (·.volt)) i = none := by
      rw [setBuses_other s3 hoi, ho]; exact hov
    rw [fold_given _ _ (by rw [this]; simp), this]
    simp
  unfold setVoltages
  rw [h1]
  generalize (List.range i).foldl (objStep objs) (setBuses s3 objs bs fun i => (objs[i]?).bind (·.volt)) = v at h2 hz' hself ⊢
  rcases objStep_cases objs v i with ⟨h', -⟩ | ⟨o', ho', ⟨hne, -⟩ | ⟨-, -, h'⟩ | ⟨-, hf, -⟩⟩
  · rw [ho] at h'; exact absurd h' (by simp)
  · exact absurd hne hself
  · rw [ho] at ho'
    obtain rfl := Option.some.inj ho'
    have hjw : ∀ y, o.windings[y]? ≠ some j := fun y h => hn.2 o (List.mem_of_getElem? ho) (List.mem_of_getElem? h)
    have hother : ∀ y, y ≠ x → ∀ v : Volts K, setWinding objs o y v w = v w := fun y hy v => setWinding_ne (fun h => hy (hw i o ho y h).2) v
    have hset : ∀ v : Volts K, v w = some none → v j = some z → setWinding objs o x v w = some z := by
      intro v hv hvj
      unfold setWinding
      rw [hox]
      simp only
      rw [if_pos (unset_iff.2 hv)]
      exact takeVolt_some hj hvj
    rw [h']
    have hcase : x = 0 ∨ x = 1 ∨ x = 2 := by omega
    rcases hcase with rfl | rfl | rfl
    · rw [hother 2 (by omega), hother 1 (by omega)]
      exact hset v h2 hz'
    · rw [hother 2 (by omega)]
      refine hset _ ?_ ?_
      · rw [hother 0 (by omega)]; exact h2
      · rw [setWinding_ne (hjw 0)]; exact hz'
    · refine hset _ ?_ ?_
      · rw [hother 1 (by omega), hother 0 (by omega)]; exact h2
      · rw [setWinding_ne (hjw 1), setWinding_ne (hjw 0)]; exact hz'
  · rw [ho] at ho'
    obtain rfl := Option.some.inj ho'
    rw [ht] at hf
    exact absurd hf (by simp)

/-- A node whose name is also the name of a later object, such as a load or a line, gets no voltage: the base voltage of the bus goes to that
object, even if it has a voltage of its own. -/
theorem C66_shadowed_violated {K : Type} [Field K] (s3 : K) (objs : List (VObj K)) (bs : List (String × K)) (n : String) (kv : K) (i j : Nat) (o : VObj K)
    (ho : objs[i]? = some o) (hname : o.name = some (some n)) (hx : o.volt = some none) (hn : NodeLike objs i) (hij : i < j) (hj : Holds objs (some n) j)
    (hb : BusBase bs n kv) : setVoltages s3 objs bs i = some none ∧ setVoltages s3 objs bs j = some (some (kv * s3 * 1000)) := by
  refine ⟨?_, C66_buses s3 objs bs n kv j hj hb⟩
  rw [(nodeLike_volt s3 bs hn).1, setBuses_other s3, ho]
  · exact hx
  · rintro b - ⟨⟨o', ho', hn'⟩, hlast⟩
    rw [ho] at ho'
    obtain rfl := Option.some.inj ho'
    obtain ⟨⟨oj, hoj, hnj⟩, -⟩ := hj
    refine hlast j oj hij hoj ?_
    rw [hnj, ← hname, hn']

/-- A fourth winding gets no voltage. -/
theorem C66_fourth_violated {K : Type} [Field K] (s3 : K) (objs : List (VObj K)) (bs : List (String × K)) (w : Nat) (ow : VObj K)
    (hw : ∀ o' ∈ objs, ∀ y, o'.windings[y]? = some w → 3 ≤ y)
    (how : objs[w]? = some ow) (hplain : ow.conn = none ∧ ow.hasFrom = false ∧ ow.isTrafo = false) (hwn : ow.name = none) :
    setVoltages s3 objs bs w = ow.volt := by
  have hstep : ∀ k, ∀ v : Volts K, objStep objs v k w = v w := by
    intro k v
    by_cases hkw : w = k
    · subst hkw
      refine objStep_self (fun o' ho' => ?_) v
      rw [how] at ho'
      obtain rfl := Option.some.inj ho'
      exact hplain
    · exact objStep_other hkw (fun o' ho' y hy h => by have := hw o' (List.mem_of_getElem? ho') y h; omega) v
  unfold setVoltages
  rw [fold_same _ (fun k _ => hstep k), setBuses_other s3, how]
  · rfl
  · rintro b - ⟨⟨o', ho', hn'⟩, -⟩
    rw [how] at ho'
    obtain rfl := Option.some.inj ho'
    rw [hwn] at hn'
    exact absurd hn' (by simp)

/-! ### Examples -/

/-- nodes "a", "b" and "671", a load "671" at the last one, a capacitor without voltage at "a", a line from "b", a transformer from "a" to "b"
and its two windings -/
def exVObjs : List (VObj ℚ) :=
  [{ name := some (some "a"), volt := some none }, { name := some (some "b"), volt := some none }, { name := some (some "671"), volt := some none },
   { name := some (some "671"), volt := some (some 4160), conn := some (some "671") },
   { name := some (some "cap"), volt := some none, conn := some (some "a") },
   { name := some (some "l"), volt := some none, hasFrom := true, fromName := some "b", toName := some "671" },
   { volt := some none }, { volt := some none },
   { name := some (some "t"), hasFrom := true, fromName := some "a", toName := some "b", isTrafo := true, windings := [6, 7] }]

def exVBuses : List (String × ℚ) := [("A", 5), ("b", 2), ("671", 7)]

example : (List.range 9).map (setVoltages 2 exVObjs exVBuses) =
    [some (some 10000), some (some 4000), some none, some (some 14000), some (some 10000), some (some 4000), some (some 10000), some (some 4000), none] := by
  decide +kernel

theorem exHolds : Holds exVObjs (some "a") 0 ∧ Holds exVObjs (some "b") 1 ∧ Holds exVObjs (some "671") 3 ∧ BusBase exVBuses "671" 7 := by
  refine ⟨lastNamed_iff.1 ?_, lastNamed_iff.1 ?_, lastNamed_iff.1 ?_, ("671", 7), ?_, rfl⟩ <;> decide +kernel

theorem exNodeLike : NodeLike exVObjs 0 ∧ NodeLike exVObjs 1 ∧ NodeLike exVObjs 2 := by
  refine ⟨⟨⟨_, rfl, ?_⟩, ?_⟩, ⟨⟨_, rfl, ?_⟩, ?_⟩, ⟨⟨_, rfl, ?_⟩, ?_⟩⟩ <;> decide +kernel

theorem exFree (i : Nat) (h : ∀ b ∈ exVBuses, lastNamed exVObjs (some (pyLower b.1)) ≠ some i) : ∀ b ∈ exVBuses, ¬ Holds exVObjs (some (pyLower b.1)) i :=
  fun b hb h' => h b hb (lastNamed_iff.2 h')

/-- the node "671" stays without voltage -/
example : setVoltages 2 exVObjs exVBuses 2 = some none :=
  (C66_shadowed_violated 2 exVObjs exVBuses "671" 7 2 3 _ rfl rfl rfl exNodeLike.2.2 (by decide) exHolds.2.2.1 exHolds.2.2.2).1

/-- the capacitor takes the voltage of "a" -/
example : setVoltages 2 exVObjs exVBuses 4 = setVoltages 2 exVObjs exVBuses 0 :=
  C66_connected 2 exVObjs exVBuses 4 0 _ (some "a") rfl rfl (exFree 4 (by decide +kernel)) (by decide +kernel) (Or.inl rfl) exHolds.1 exNodeLike.1

/-- the second winding takes the voltage of "b" -/
example : setVoltages 2 exVObjs exVBuses 7 = setVoltages 2 exVObjs exVBuses 1 := by
  refine C66_windings 2 exVObjs exVBuses 8 7 1 1 _ _ rfl rfl rfl (exFree 8 (by decide +kernel)) (by decide +kernel) rfl (by decide) ?_ rfl ⟨rfl, rfl, rfl⟩ rfl rfl
    exHolds.2.1 exNodeLike.2.1
  intro k o' hk y hy
  have hk9 : k < 9 := (List.getElem?_eq_some_iff.1 hk).1
  have hall : ∀ k < 9, ∀ y < 2, (exVObjs[k]?.bind fun o => o.windings[y]?) = some 7 → k = 8 ∧ y = 1 := by decide +kernel
  have hle : ∀ o ∈ exVObjs, o.windings.length ≤ 2 := by decide +kernel
  have hy2 : y < 2 := lt_of_lt_of_le (List.getElem?_eq_some_iff.1 hy).1 (hle o' (List.mem_of_getElem? hk))
  exact hall k hk9 y hy2 (by rw [hk]; exact hy)

end Ditto.Dss
