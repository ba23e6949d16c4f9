import Verif.Spec.GlmRegs
import Verif.Lemmas.GlmTrafos

namespace Ditto.Glm
open Ditto Glm.Spec

section numbers
variable {K : Type} {flt : Text → Option K} {int : Text → Option Int} {o oc : GldObj} {d c : Decl}

theorem change_letters {p : Char} {f : GRegPhase K → GRegPhase K} (hf : ∀ a, (f a).phase = a.phase) :
    ∀ l : List (GRegPhase K), (changePhase p f l).map (·.phase) = l.map (·.phase)
  | [] => rfl
  | a :: l => by
    unfold changePhase
    split
    · rw [List.map_cons, List.map_cons, hf]
    · rw [List.map_cons, List.map_cons, change_letters hf l]

theorem change_mem {p : Char} {f : GRegPhase K → GRegPhase K} : ∀ {l : List (GRegPhase K)}, (l.map (·.phase)).Nodup → ∀ {a}, a ∈ changePhase p f l →
    (∃ b ∈ l, b.phase = p ∧ a = f b) ∨ (a ∈ l ∧ a.phase ≠ p)
  | [], _, a, h => by cases h
  | b :: l, hn, a, h => by
    rw [List.map_cons, List.nodup_cons] at hn
    unfold changePhase at h
    split at h
    · rename_i hp
      rcases List.mem_cons.mp h with rfl | h
      · exact .inl ⟨b, .head _, hp, rfl⟩
      · refine .inr ⟨.tail _ h, fun e => hn.1 ?_⟩
        rw [hp, ← e]
        exact List.mem_map_of_mem h
    · rename_i hp
      rcases List.mem_cons.mp h with rfl | h
      · exact .inr ⟨.head _, hp⟩
      · rcases change_mem hn.2 h with ⟨b', h1, h2⟩ | ⟨h1, h2⟩
        · exact .inl ⟨b', .tail _ h1, h2⟩
        · exact .inr ⟨.tail _ h1, h2⟩

/-- the value of a phase that was looked at, or none -/
def Looked {V : Type} (conv : Text → Option V) (c : Decl) (k : Text) (seen : List Char) (p : Char) (v : Option V) : Prop :=
  if p ∈ seen then Optional conv c (ofPhase k p) v else v = none

theorem looked_other {V : Type} {conv : Text → Option V} {k : Text} {seen : List Char} {p q : Char} {v : Option V} (h : Looked conv c k seen q v)
    (hq : q ≠ p) : Looked conv c k (seen ++ [p]) q v := by
  unfold Looked at h ⊢
  by_cases hs : q ∈ seen
  · rw [if_pos hs] at h
    rw [if_pos (by simp [hs])]
    exact h
  · rw [if_neg hs] at h
    rw [if_neg (by simp [hs, hq])]
    exact h

theorem looked_missing {V : Type} {conv : Text → Option V} {k : Text} {seen : List Char} {p q : Char} {v : Option V} (h : Looked conv c k seen q v)
    (hm : attrOf c (ofPhase k p) = none) (hp : p ∉ seen) : Looked conv c k (seen ++ [p]) q v := by
  by_cases hq : q = p
  · subst hq
    unfold Looked at h ⊢
    rw [if_neg hp] at h
    rw [if_pos (by simp), h]
    exact hm
  · exact looked_other h hq

theorem looked_found {V : Type} {conv : Text → Option V} {k : Text} {seen : List Char} {p : Char} {v : V} (h : Value conv c (ofPhase k p) v) :
    Looked conv c k (seen ++ [p]) p (some v) := by
  unfold Looked
  rw [if_pos (by simp)]
  exact h

/-- the settings that were looked at -/
structure Settled (flt : Text → Option K) (int : Text → Option Int) (c : Decl) (t r x : List Char) (a : GRegPhase K) : Prop where
  tap : Looked int c "tap_pos".toList t a.phase a.tap
  r : Looked flt c "compensator_r_setting".toList r a.phase a.r
  x : Looked flt c "compensator_x_setting".toList x a.phase a.x

theorem tap_ok (ho : Stored oc c) {p : Char} {ps ps' : List (GRegPhase K)} (h : readTap int oc p ps = .ok ps') {t : List Char} (hp : p ∉ t) :
    ps'.map (·.phase) = ps.map (·.phase) ++ [p].filter (fun p => (attrOf c (ofPhase "tap_pos".toList p)).isSome ∧ p ∉ ps.map (·.phase)) ∧
      ((ps.map (·.phase)).Nodup → (∀ a ∈ ps, Settled flt int c t [] [] a) → ∀ a ∈ ps', Settled flt int c (t ++ [p]) [] [] a) := by
  unfold readTap at h
  rw [entry_attr ho] at h
  have hk : phaseKey "tap_pos".toList p = ofPhase "tap_pos".toList p := rfl
  rw [hk] at h
  cases ha : attrOf c (ofPhase "tap_pos".toList p) with
  | none =>
    rw [ha] at h
    cases h
    refine ⟨by rw [List.filter_cons_of_neg (by rw [decide_eq_true_eq, ha]; rintro ⟨h, -⟩; cases h)]; simp, fun _ hs a hm => ?_⟩
    have := hs a hm
    exact ⟨looked_missing this.tap ha hp, this.r, this.x⟩
  | some tx =>
    rw [ha] at h
    dsimp only at h
    split at h
    · cases h
    · rename_i n hn
      cases h
      have hv : Value int c (ofPhase "tap_pos".toList p) n := ⟨tx, ha, hn⟩
      rw [change_letters (by intro a; rfl)]
      by_cases hm : p ∈ ps.map (·.phase)
      · rw [if_pos hm]
        refine ⟨by rw [List.filter_cons_of_neg (by rw [decide_eq_true_eq]; exact fun h => h.2 hm)]; simp, fun hnd hs a ha' => ?_⟩
        rcases change_mem hnd ha' with ⟨b, hb, rfl, rfl⟩ | ⟨hb, hne⟩
        · have := hs b hb
          exact ⟨looked_found hv, this.r, this.x⟩
        · have := hs a hb
          exact ⟨looked_other this.tap hne, this.r, this.x⟩
      · rw [if_neg hm]
        refine ⟨by rw [List.filter_cons_of_pos (by rw [decide_eq_true_eq, ha]; exact ⟨rfl, hm⟩)]; simp, fun hnd hs a ha' => ?_⟩
        have hnd' : ((ps ++ [(⟨p, none, none, none⟩ : GRegPhase K)]).map (·.phase)).Nodup := by
          rw [List.map_append, List.nodup_append']
          refine ⟨hnd, List.nodup_singleton _, ?_⟩
          intro q hq hq'
          rw [List.map_singleton, List.mem_singleton] at hq'
          rw [hq'] at hq
          exact hm hq
        have hnew : ∀ b : GRegPhase K, b ∈ ps ++ [⟨p, none, none, none⟩] → Settled flt int c t [] [] b := by
          intro b hb
          rcases List.mem_append.mp hb with hb | hb
          · exact hs b hb
          · rw [List.mem_singleton] at hb
            subst hb
            refine ⟨?_, ?_, ?_⟩
            · unfold Looked; rw [if_neg hp]
            · unfold Looked; rw [if_neg (by simp)]
            · unfold Looked; rw [if_neg (by simp)]
        rcases change_mem hnd' ha' with ⟨b, hb, rfl, rfl⟩ | ⟨hb, hne⟩
        · have := hnew b hb
          exact ⟨looked_found hv, this.r, this.x⟩
        · have := hnew a hb
          exact ⟨looked_other this.tap hne, this.r, this.x⟩

theorem tap_nodup {p : Char} {ps ps' : List (GRegPhase K)} {q : Char → Bool}
    (h : ps'.map (·.phase) = ps.map (·.phase) ++ [p].filter (fun p => q p = true ∧ p ∉ ps.map (·.phase))) (hn : (ps.map (·.phase)).Nodup) :
    (ps'.map (·.phase)).Nodup := by
  rw [h, List.nodup_append']
  refine ⟨hn, (List.nodup_singleton _).filter _, ?_⟩
  intro a ha hb
  have := (List.mem_filter.mp hb).2
  simp only [decide_eq_true_eq] at this
  exact this.2 ha

/-- the loop over the tap positions -/
theorem taps_ok (ho : Stored oc c) : ∀ {l : List Char} {ps ps' : List (GRegPhase K)}, regLoop (readTap int oc) l ps = .ok ps' → l.Nodup →
    ∀ {t : List Char}, (∀ p ∈ l, p ∉ t) →
    ps'.map (·.phase) = ps.map (·.phase) ++ l.filter (fun p => (attrOf c (ofPhase "tap_pos".toList p)).isSome ∧ p ∉ ps.map (·.phase)) ∧
      ((ps.map (·.phase)).Nodup → (∀ a ∈ ps, Settled flt int c t [] [] a) → (ps'.map (·.phase)).Nodup ∧ ∀ a ∈ ps', Settled flt int c (t ++ l) [] [] a)
  | [], ps, ps', h, _, t, _ => by
    cases h
    refine ⟨by simp, fun hn hs => ⟨hn, ?_⟩⟩
    rw [List.append_nil]
    exact hs
  | p :: l, ps, ps', h, hl, t, ht => by
    unfold regLoop at h
    split at h
    · cases h
    · rename_i ps1 h1
      rw [List.nodup_cons] at hl
      obtain ⟨e1, s1⟩ := tap_ok (flt := flt) ho h1 (ht p (.head _))
      obtain ⟨e2, s2⟩ := taps_ok ho h hl.2 (t := t ++ [p]) (by
        intro q hq hqt
        rcases List.mem_append.mp hqt with hqt | hqt
        · exact ht q (.tail _ hq) hqt
        · rw [List.mem_singleton] at hqt
          subst hqt
          exact hl.1 hq)
      refine ⟨?_, fun hn hs => ?_⟩
      · rw [e2, e1, List.append_assoc]
        congr 1
        have hcongr : (l.filter fun q => decide ((attrOf c (ofPhase "tap_pos".toList q)).isSome = true ∧
            q ∉ ps.map (·.phase) ++ [p].filter (fun p => (attrOf c (ofPhase "tap_pos".toList p)).isSome ∧ p ∉ ps.map (·.phase)))) =
            l.filter fun q => decide ((attrOf c (ofPhase "tap_pos".toList q)).isSome = true ∧ q ∉ ps.map (·.phase)) := by
          refine List.filter_congr fun q hq => ?_
          have hqp : q ≠ p := by rintro rfl; exact hl.1 hq
          have : q ∉ [p].filter (fun p => decide ((attrOf c (ofPhase "tap_pos".toList p)).isSome = true ∧ p ∉ ps.map (·.phase))) := by
            intro hm
            have := (List.mem_filter.mp hm).1
            rw [List.mem_singleton] at this
            exact hqp this
          rw [decide_eq_decide, List.mem_append]
          constructor
          · rintro ⟨h1, h2⟩; exact ⟨h1, fun h => h2 (.inl h)⟩
          · rintro ⟨h1, h2⟩; exact ⟨h1, fun h => h.elim h2 this⟩
        rw [hcongr, ← List.filter_append]
        rfl
      · have := s2 (tap_nodup e1 hn) (s1 hn hs)
        rwa [List.append_assoc] at this

/-- one setting of the compensator -/
theorem compensator_ok (ho : Stored oc c) {k : Text} {set : K → GRegPhase K → GRegPhase K} (hset : ∀ v a, (set v a).phase = a.phase) {p : Char}
    {ps ps' : List (GRegPhase K)} (h : readCompensator flt oc k set p ps = .ok ps') {S S' : GRegPhase K → Prop}
    (hmiss : attrOf c (ofPhase k p) = none → ∀ a, S a → S' a) (hother : ∀ a, a.phase ≠ p → S a → S' a)
    (hfound : ∀ v a, a.phase = p → Value flt c (ofPhase k p) v → S a → S' (set v a)) :
    ps'.map (·.phase) = ps.map (·.phase) ∧ ((ps.map (·.phase)).Nodup → (∀ a ∈ ps, S a) → ∀ a ∈ ps', S' a) := by
  unfold readCompensator at h
  rw [entry_attr ho] at h
  have hk : phaseKey k p = ofPhase k p := rfl
  rw [hk] at h
  cases ha : attrOf c (ofPhase k p) with
  | none =>
    rw [ha] at h
    cases h
    exact ⟨rfl, fun _ hs a hm => hmiss ha a (hs a hm)⟩
  | some t =>
    rw [ha] at h
    dsimp only at h
    split at h
    · split at h
      · cases h
      · rename_i v hv
        cases h
        refine ⟨change_letters (hset v) _, fun hn hs a hm => ?_⟩
        rcases change_mem hn hm with ⟨b, hb, hbp, rfl⟩ | ⟨hb, hne⟩
        · exact hfound v b hbp ⟨t, ha, hv⟩ (hs b hb)
        · exact hother a hne (hs a hb)
    · cases h

theorem compensators_ok (ho : Stored oc c) {k : Text} {set : K → GRegPhase K → GRegPhase K} (hset : ∀ v a, (set v a).phase = a.phase)
    {S : List Char → GRegPhase K → Prop}
    (hmiss : ∀ seen p, p ∉ seen → attrOf c (ofPhase k p) = none → ∀ a, S seen a → S (seen ++ [p]) a)
    (hother : ∀ seen p a, a.phase ≠ p → S seen a → S (seen ++ [p]) a)
    (hfound : ∀ seen p v a, a.phase = p → Value flt c (ofPhase k p) v → S seen a → S (seen ++ [p]) (set v a)) :
    ∀ {l : List Char} {ps ps' : List (GRegPhase K)}, regLoop (readCompensator flt oc k set) l ps = .ok ps' → l.Nodup →
      ∀ {t : List Char}, (∀ p ∈ l, p ∉ t) → ps'.map (·.phase) = ps.map (·.phase) ∧
        ((ps.map (·.phase)).Nodup → (∀ a ∈ ps, S t a) → ∀ a ∈ ps', S (t ++ l) a)
  | [], ps, ps', h, _, t, _ => by
    cases h
    refine ⟨rfl, fun _ hs => ?_⟩
    rw [List.append_nil]
    exact hs
  | p :: l, ps, ps', h, hl, t, ht => by
    unfold regLoop at h
    split at h
    · cases h
    · rename_i ps1 h1
      rw [List.nodup_cons] at hl
      obtain ⟨e1, s1⟩ := compensator_ok ho hset h1 (S := S t) (S' := S (t ++ [p])) (hmiss t p (ht p (.head _))) (hother t p) (hfound t p)
      obtain ⟨e2, s2⟩ := compensators_ok ho hset hmiss hother hfound h hl.2 (t := t ++ [p]) (by
        intro q hq hqt
        rcases List.mem_append.mp hqt with hqt | hqt
        · exact ht q (.tail _ hq) hqt
        · rw [List.mem_singleton] at hqt
          subst hqt
          exact hl.1 hq)
      refine ⟨e2.trans e1, fun hn hs => ?_⟩
      have := s2 (by rw [e1]; exact hn) (s1 hn hs)
      rwa [List.append_assoc] at this

theorem regPhases_ok (ho : Stored oc c) {ps ps' : List (GRegPhase K)} (h : regPhases flt int oc ps = .ok ps') :
    ps'.map (·.phase) = regLetters c (ps.map (·.phase)) ∧
      ((ps.map (·.phase)).Nodup → (∀ a ∈ ps, a.tap = none ∧ a.r = none ∧ a.x = none) →
        ∀ a ∈ ps', Settled flt int c ['A', 'B', 'C'] ['A', 'B', 'C'] ['A', 'B', 'C'] a) := by
  unfold regPhases at h
  split at h
  · cases h
  · rename_i ps1 h1
    split at h
    · cases h
    · rename_i ps2 h2
      obtain ⟨e1, s1⟩ := taps_ok (flt := flt) ho h1 (by decide) (t := []) (by simp)
      obtain ⟨e2, s2⟩ := compensators_ok ho (set := fun v a => { a with r := some v }) (fun _ _ => rfl) (S := fun seen => Settled flt int c ['A', 'B', 'C'] seen [])
        (fun seen p hp hm a hs => ⟨hs.tap, looked_missing hs.r hm hp, hs.x⟩) (fun seen p a hne hs => ⟨hs.tap, looked_other hs.r hne, hs.x⟩)
        (fun seen p v a hp hv hs => ⟨hs.tap, by subst hp; exact looked_found hv, hs.x⟩) h2 (by decide) (t := []) (by simp)
      obtain ⟨e3, s3⟩ := compensators_ok ho (set := fun v a => { a with x := some v }) (fun _ _ => rfl) (S := fun seen => Settled flt int c ['A', 'B', 'C'] ['A', 'B', 'C'] seen)
        (fun seen p hp hm a hs => ⟨hs.tap, hs.r, looked_missing hs.x hm hp⟩) (fun seen p a hne hs => ⟨hs.tap, hs.r, looked_other hs.x hne⟩)
        (fun seen p v a hp hv hs => ⟨hs.tap, hs.r, by subst hp; exact looked_found hv⟩) h (by decide) (t := []) (by simp)
      refine ⟨by rw [e3, e2, e1]; rfl, fun hn hs => ?_⟩
      obtain ⟨hn1, hs1⟩ := s1 hn fun a ha => by
        obtain ⟨h1, h2, h3⟩ := hs a ha
        exact ⟨by rw [h1]; unfold Looked; simp, by rw [h2]; unfold Looked; simp, by rw [h3]; unfold Looked; simp⟩
      have hs2 := s2 hn1 hs1
      exact s3 (by rw [e2]; exact hn1) hs2

theorem settled_says {a : GRegPhase K} (h : Settled flt int c ['A', 'B', 'C'] ['A', 'B', 'C'] ['A', 'B', 'C'] a) :
    if a.phase ∈ ['A', 'B', 'C'] then RegPhaseSays flt int c a else a.tap = none ∧ a.r = none ∧ a.x = none := by
  obtain ⟨h1, h2, h3⟩ := h
  unfold Looked at h1 h2 h3
  split
  · rename_i hp
    rw [if_pos hp] at h1 h2 h3
    exact ⟨h1, h2, h3⟩
  · rename_i hp
    rw [if_neg hp] at h1 h2 h3
    exact ⟨h1, h2, h3⟩

theorem ptPhase_ok (ho : Stored oc c) {p : Option Char} (h : regPtPhase oc = .ok p) : PtSays c p := by
  unfold regPtPhase at h
  rw [entry_attr ho] at h
  cases ha : attrOf c "PT_phase".toList with
  | none =>
    rw [ha] at h
    cases h
    exact ha
  | some t =>
    rw [ha] at h
    dsimp only at h
    obtain ⟨u, hu⟩ := unquoted_strip t
    rw [strip_unquoted hu] at h
    cases u with
    | nil => cases h
    | cons q rest =>
      cases h
      exact ⟨t, rest, ha, hu⟩

theorem regVoltage_ok {objects : List (Text × GldObj)} {ds : List Decl} (hh : Holds objects [] ds) (ho : Stored o d) {v : Option K}
    (h : regVoltage flt objects o = .ok v) : EndVoltage flt ds d v := by
  unfold regVoltage at h
  rw [entry_attr ho] at h
  cases ha : attrOf d "from".toList with
  | none =>
    rw [ha] at h
    cases h
    exact .inl ⟨ha, rfl⟩
  | some n =>
    rw [ha] at h
    dsimp only at h
    have hn := hh n
    rw [entry_find] at h
    cases hl : lastNamed ds n with
    | none =>
      rw [hl] at hn
      dsimp only at hn
      rw [hn] at h
      cases h
    | some f =>
      rw [hl] at hn
      obtain ⟨of, h1, h2⟩ := hn
      rw [h1] at h
      exact .inr ⟨n, f, ha, hl, optional_ok h2 h⟩

theorem configuredReg_ok (ho : Stored o d) (hc : Stored oc c) {v : Option K} {r : GReadReg K} (h : configuredReg flt int oc (plainReg o v) = .ok r) :
    r.name = readName o ∧ r.source = none ∧ r.sink = none ∧ r.voltage = v ∧ RegConfigSays flt int d c r := by
  unfold configuredReg at h
  split at h
  · cases h
  · rename_i ps hps
    repeat' (split at h; · cases h)
    rename_i delay h1 _ bw h2 _ bc h3 _ hi h4 _ lo h5 _ pt h6 _ ct h7 _ pp h8
    cases h
    refine ⟨rfl, rfl, rfl, rfl, ?_⟩
    obtain ⟨e, s⟩ := regPhases_ok hc hps
    have hl : (plainReg o v).phases.map (·.phase) = trafoPhases o := by
      show ((trafoPhases o).map _).map _ = _
      rw [List.map_map]
      exact List.map_id'' (fun _ => rfl) _
    rw [hl] at e s
    refine ⟨⟨trafoPhases o, trafoPhases_ok ho, e, fun hn p hp => settled_says (s hn ?_ p hp)⟩, ?_, optional_ok hc h1, optional_ok hc h2, optional_ok hc h3,
      optional_ok hc h4, optional_ok hc h5, optional_ok hc h6, optional_ok hc h7, ptPhase_ok hc h8⟩
    · intro a ha
      obtain ⟨q, -, rfl⟩ := List.mem_map.mp ha
      exact ⟨rfl, rfl, rfl⟩
    · show regConnection oc = _
      unfold regConnection
      rw [entry_attr hc]

theorem tap_runs (ho : Stored oc c) {p : Char} (hc : Clean int c (ofPhase "tap_pos".toList p)) (ps : List (GRegPhase K)) :
    ∃ ps', readTap int oc p ps = .ok ps' := by
  unfold readTap
  rw [entry_attr ho]
  have hk : phaseKey "tap_pos".toList p = ofPhase "tap_pos".toList p := rfl
  rw [hk]
  cases ha : attrOf c (ofPhase "tap_pos".toList p) with
  | none => exact ⟨_, rfl⟩
  | some t =>
    dsimp only
    obtain ⟨n, hn⟩ := Option.isSome_iff_exists.mp (hc t ha)
    rw [hn]
    exact ⟨_, rfl⟩

theorem taps_run (ho : Stored oc c) : ∀ {l : List Char}, (∀ p ∈ l, Clean int c (ofPhase "tap_pos".toList p)) → ∀ ps : List (GRegPhase K),
    ∃ ps', regLoop (readTap int oc) l ps = .ok ps'
  | [], _, ps => ⟨ps, rfl⟩
  | p :: l, h, ps => by
    obtain ⟨ps1, h1⟩ := tap_runs ho (h p (.head _)) ps
    unfold regLoop
    rw [h1]
    exact taps_run ho (fun q hq => h q (.tail _ hq)) ps1

theorem compensators_run (ho : Stored oc c) {k : Text} {set : K → GRegPhase K → GRegPhase K} (hset : ∀ v a, (set v a).phase = a.phase) :
    ∀ {l : List Char}, (∀ p ∈ l, Clean flt c (ofPhase k p)) → ∀ ps : List (GRegPhase K),
      (∀ p ∈ l, (attrOf c (ofPhase k p)).isSome → p ∈ ps.map (·.phase)) →
      ∃ ps', regLoop (readCompensator flt oc k set) l ps = .ok ps' ∧ ps'.map (·.phase) = ps.map (·.phase)
  | [], _, ps, _ => ⟨ps, rfl, rfl⟩
  | p :: l, h, ps, hps => by
    have hk : phaseKey k p = ofPhase k p := rfl
    have h1 : ∃ ps1, readCompensator flt oc k set p ps = .ok ps1 ∧ ps1.map (·.phase) = ps.map (·.phase) := by
      unfold readCompensator
      rw [entry_attr ho, hk]
      cases ha : attrOf c (ofPhase k p) with
      | none => exact ⟨_, rfl, rfl⟩
      | some t =>
        dsimp only
        obtain ⟨n, hn⟩ := Option.isSome_iff_exists.mp (h p (.head _) t ha)
        rw [if_pos (hps p (.head _) (by rw [ha]; rfl)), hn]
        exact ⟨_, rfl, change_letters (hset n) ps⟩
    obtain ⟨ps1, h1, e1⟩ := h1
    unfold regLoop
    rw [h1]
    obtain ⟨ps', h2, e2⟩ := compensators_run ho hset (fun q hq => h q (.tail _ hq)) ps1 fun q hq hs => by rw [e1]; exact hps q (.tail _ hq) hs
    exact ⟨ps', h2, e2.trans e1⟩

theorem compensators_fail (ho : Stored oc c) {k : Text} {set : K → GRegPhase K → GRegPhase K} (hset : ∀ v a, (set v a).phase = a.phase) {p : Char}
    (hp : (attrOf c (ofPhase k p)).isSome) :
    ∀ {l : List Char}, p ∈ l → ∀ {ps ps' : List (GRegPhase K)}, regLoop (readCompensator flt oc k set) l ps = .ok ps' → p ∈ ps.map (·.phase)
  | [], hm, _, _, _ => by cases hm
  | q :: l, hm, ps, ps', h => by
    unfold regLoop at h
    split at h
    · cases h
    · rename_i ps1 h1
      have e1 := (compensator_ok ho hset h1 (S := fun _ => True) (S' := fun _ => True) (fun _ _ _ => trivial) (fun _ _ _ => trivial)
        (fun _ _ _ _ _ => trivial)).1
      rcases List.mem_cons.mp hm with rfl | hm
      · unfold readCompensator at h1
        have hk : phaseKey k p = ofPhase k p := rfl
        rw [entry_attr ho, hk] at h1
        obtain ⟨t, ht⟩ := Option.isSome_iff_exists.mp hp
        rw [ht] at h1
        dsimp only at h1
        split at h1
        · assumption
        · cases h1
      · rw [← e1]
        exact compensators_fail ho hset hp hm h

theorem plain_letters (o : GldObj) (v : Option K) : (plainReg o v).phases.map (·.phase) = trafoPhases o := by
  show ((trafoPhases o).map _).map _ = _
  rw [List.map_map]
  exact List.map_id'' (fun _ => rfl) _

theorem regPhases_run (ho : Stored oc c) (hc : CleanReg flt int c) (ps : List (GRegPhase K))
    (hps : ∀ p ∈ ['A', 'B', 'C'], (attrOf c (ofPhase "compensator_r_setting".toList p)).isSome ∨ (attrOf c (ofPhase "compensator_x_setting".toList p)).isSome →
      p ∈ regLetters c (ps.map (·.phase))) : ∃ ps', regPhases flt int oc ps = .ok ps' := by
  unfold regPhases
  obtain ⟨ps1, h1⟩ := taps_run ho hc.taps ps
  have e1 : ps1.map (·.phase) = regLetters c (ps.map (·.phase)) := (taps_ok (flt := flt) ho h1 (by decide) (t := []) (by simp)).1
  obtain ⟨ps2, h2, e2⟩ := compensators_run ho (set := fun v (a : GRegPhase K) => { a with r := some v }) (fun _ _ => rfl) (fun p hp => (hc.compensators p hp).1) ps1
    fun p hp hs => by rw [e1]; exact hps p hp (.inl hs)
  obtain ⟨ps3, h3, -⟩ := compensators_run ho (set := fun v (a : GRegPhase K) => { a with x := some v }) (fun _ _ => rfl) (fun p hp => (hc.compensators p hp).2) ps2
    fun p hp hs => by rw [e2, e1]; exact hps p hp (.inr hs)
  rw [h1]
  dsimp only
  rw [h2]
  exact ⟨ps3, h3⟩

theorem configuredReg_run (ho : Stored oc c) (hc : CleanReg flt int c) (r : GReadReg K)
    (hps : ∀ p ∈ ['A', 'B', 'C'], (attrOf c (ofPhase "compensator_r_setting".toList p)).isSome ∨ (attrOf c (ofPhase "compensator_x_setting".toList p)).isSome →
      p ∈ regLetters c (r.phases.map (·.phase))) : ∃ r', configuredReg flt int oc r = .ok r' := by
  unfold configuredReg
  obtain ⟨ps, h0⟩ := regPhases_run ho hc r.phases hps
  obtain ⟨v1, h1⟩ := optional_clean ho (hc.numbers _ (.head _))
  obtain ⟨v2, h2⟩ := optional_clean ho (hc.numbers _ (.tail _ (.head _)))
  obtain ⟨v3, h3⟩ := optional_clean ho (hc.numbers _ (.tail _ (.tail _ (.head _))))
  obtain ⟨v4, h4⟩ := optional_clean ho (hc.steps _ (.head _))
  obtain ⟨v5, h5⟩ := optional_clean ho (hc.steps _ (.tail _ (.head _)))
  obtain ⟨v6, h6⟩ := optional_clean ho (hc.numbers _ (.tail _ (.tail _ (.tail _ (.head _)))))
  obtain ⟨v7, h7⟩ := optional_clean ho (hc.numbers _ (.tail _ (.tail _ (.tail _ (.tail _ (.head _))))))
  have h8 : ∃ p, regPtPhase oc = .ok p := by
    unfold regPtPhase
    rw [entry_attr ho]
    cases ha : attrOf c "PT_phase".toList with
    | none => exact ⟨_, rfl⟩
    | some t =>
      obtain ⟨u, hu⟩ := unquoted_strip t
      dsimp only
      rw [strip_unquoted hu]
      cases u with
      | nil => exact absurd hu (hc.pt t ha)
      | cons q rest => exact ⟨_, rfl⟩
  obtain ⟨v8, h8⟩ := h8
  rw [h0]; dsimp only
  rw [h1]; dsimp only
  rw [h2]; dsimp only
  rw [h3]; dsimp only
  rw [h4]; dsimp only
  rw [h5]; dsimp only
  rw [h6]; dsimp only
  rw [h7]; dsimp only
  rw [h8]
  exact ⟨_, rfl⟩

end numbers
end Ditto.Glm
