import Verif.Lemmas.CenterTapWires

/-! C34: `center_tap_load_preprocessing`. -/
namespace Ditto.Net
open Ditto

/-- the run seen from one object -/
theorem centerTap_at {objs : List NetObj} {s : String} {n : Network} (hb : build objs s = .ok n) {devs devs' : List TapDev}
    (h : centerTap n devs = .ok devs') {i : Nat} {d : TapDev} (hd : devs[i]? = some d) : ∃ d' : TapDev, devs'[i]? = some d' ∧
      d'.net = d.net ∧ d'.windings = d.windings ∧
      (d.net.cls ≠ "Load" → d'.phaseLoads = d.phaseLoads ∧ d'.isCenterTap = d.isCenterTap ∧ d'.shares = d.shares) ∧
      (d.net.cls = "Load" → ∃ x es t lines ph tr, d.net.connecting = some x ∧ Route n.digraph s es x ∧ AboveOn n es t lines ∧
        PhasesOf devs t ph ∧ Retapped ph d.phaseLoads d'.phaseLoads ∧ (∃ v, TotalP d.phaseLoads v) ∧ (∃ v, TotalQ d.phaseLoads v) ∧
        named (·.net.name) devs t = .ok tr ∧ (tr.net.cls ≠ "Load" → d'.isCenterTap = (d.isCenterTap || tr.isCenterTap) ∧
          d'.shares = if tr.isCenterTap then some (1 / 2, 1 / 2, 0) else d.shares)) := by
  obtain ⟨infos, devs1, phs, hfind, hlen, hph, hrun⟩ := centerTap_parts h
  obtain ⟨hidx, herU, hinfo⟩ := tapFinds_ok _ hfind
  have hU : ∀ (j : Nat) (d1 : TapDev), devs1[j]? = some d1 → ∃ d : TapDev, devs[j]? = some d ∧ erU d1 = erU d := by
    intro j d1 hd1
    have : (devs1.map erU)[j]? = (devs.map erU)[j]? := by rw [herU]
    rw [List.getElem?_map, List.getElem?_map, hd1] at this
    cases hdj : devs[j]? with
    | none => rw [hdj] at this; simp at this
    | some d => rw [hdj] at this; exact ⟨d, rfl, by simpa using this⟩
  have hl1 : devs1.length = devs.length := by simpa using congrArg List.length herU
  have hidxs : ((infos.zip phs).map (·.1.idx)) = loadIndices devs := by
    rw [← hidx, ← zip_fst hlen, List.map_map, zip_fst hlen]
    rfl
  obtain ⟨d1, hd1⟩ : ∃ d1, devs1[i]? = some d1 :=
    ⟨_, List.getElem?_eq_getElem (by have := (List.getElem?_eq_some_iff.1 hd).1; omega)⟩
  obtain ⟨d0, hd0, hdd⟩ := hU i d1 hd1
  obtain rfl : d = d0 := by rw [hd] at hd0; simpa using hd0
  have hloads : ∀ x ∈ infos.zip phs, ∃ d, devs1[x.1.idx]? = some d ∧ d.net.cls = "Load" := by
    intro x hx
    have hm : x.1.idx ∈ loadIndices devs := by rw [← hidxs]; exact List.mem_map.2 ⟨x, hx, rfl⟩
    obtain ⟨d2, hd2, hc⟩ := mem_loadIndices.1 hm
    obtain ⟨d3, hd3⟩ : ∃ d3, devs1[x.1.idx]? = some d3 :=
      ⟨_, List.getElem?_eq_getElem (by have := (List.getElem?_eq_some_iff.1 hd2).1; omega)⟩
    obtain ⟨d4, hd4, he⟩ := hU _ d3 hd3
    obtain rfl : d2 = d4 := by rw [hd2] at hd4; simpa using hd4
    have hnet := congrArg TapDev.net he
    have hnet' : d3.net = d2.net := hnet
    exact ⟨d3, hd3, by rw [hnet']; exact hc⟩
  obtain ⟨d', hd', hout, hin⟩ := tapLoads_spec (infos.zip phs) (by rw [hidxs]; exact loadIndices_nodup devs) hloads hrun i d1 hd1
  have e1 := congrArg TapDev.net hdd
  have e2 := congrArg TapDev.windings hdd
  have e3 := congrArg TapDev.isCenterTap hdd
  have e4 := congrArg TapDev.shares hdd
  have e5 := congrArg TapDev.phaseLoads hdd
  simp only [erU] at e1 e2 e3 e4 e5
  rw [hidxs] at hout
  by_cases hc : d.net.cls = "Load"
  · have hmem : i ∈ infos.map (·.idx) := by rw [hidx]; exact mem_loadIndices.2 ⟨d, hd, hc⟩
    obtain ⟨info, hinf, hii⟩ := List.mem_map.1 hmem
    rw [← zip_fst hlen] at hinf
    obtain ⟨⟨info', ph⟩, hz, rfl⟩ := List.mem_map.1 hinf
    simp only at hii
    obtain ⟨tr1, htr1, hret, hTP, hTQ, tap, htap, hfin⟩ := hin info' ph hz hii
    obtain ⟨d5, hd5, hup⟩ := hinfo info' (List.of_mem_zip hz).1
    obtain rfl : d = d5 := by rw [hii, hd] at hd5; simpa using hd5
    obtain ⟨x, es, hx, hr, habove⟩ := tapUp_ok hb hup
    have f1 := congrArg TapDev.net hfin
    have f2 := congrArg TapDev.windings hfin
    have f3 := congrArg TapDev.isCenterTap hfin
    have f4 := congrArg TapDev.shares hfin
    simp only [erW] at f1 f2 f3 f4
    have g1 : (d1.tagged tap).net = d1.net := by unfold TapDev.tagged; split <;> rfl
    have g2 : (d1.tagged tap).windings = d1.windings := by unfold TapDev.tagged; split <;> rfl
    obtain ⟨tr, htr, hutr⟩ : ∃ tr, named (·.net.name) devs info'.trafo = .ok tr ∧ erU tr1 = erU tr := by
      have hF : List.Forall₂ (fun a b : TapDev => erU b = erU a) devs1 devs :=
        forall2_of_map_eq (g := erU) (fun a b h => h) herU.symm
      obtain ⟨b, hb', hbb⟩ := named_rel (name := fun d : TapDev => d.net.name) hF (fun a b h => by
        have := congrArg TapDev.net h
        have h' : b.net = a.net := this
        rw [h']) htr1
      exact ⟨b, hb', hbb.symm⟩
    have k1 := congrArg TapDev.net hutr
    have k2 := congrArg TapDev.isCenterTap hutr
    simp only [erU] at k1 k2
    refine ⟨d', hd', by rw [f1, g1, e1], by rw [f2, g2, e2], fun hne => absurd hc hne, fun _ => ?_⟩
    refine ⟨x, es, info'.trafo, info'.lines, ph, tr, hx, hr, habove, trafoPhases_ok (hph _ _ hz), by rw [← e5]; exact hret,
      by rw [← e5]; exact hTP, by rw [← e5]; exact hTQ, htr, fun hne => ?_⟩
    have htap' := htap (by rw [k1]; exact hne)
    rw [f3, f4, htap', k2]
    unfold TapDev.tagged
    cases tr.isCenterTap with
    | true => simp [TapDev.tag]
    | false => simp [e3, e4]
  · have hno : i ∉ loadIndices devs := by
      intro hm
      obtain ⟨d2, hd2, hc2⟩ := mem_loadIndices.1 hm
      obtain rfl : d = d2 := by rw [hd] at hd2; simpa using hd2
      exact hc hc2
    have hfin := hout hno
    have f1 := congrArg TapDev.net hfin
    have f2 := congrArg TapDev.windings hfin
    have f3 := congrArg TapDev.isCenterTap hfin
    have f4 := congrArg TapDev.shares hfin
    have f5 := congrArg TapDev.phaseLoads hfin
    simp only [erW] at f1 f2 f3 f4 f5
    exact ⟨d', hd', by rw [f1, e1], by rw [f2, e2], fun _ => ⟨by rw [f5, e5], by rw [f3, e3], by rw [f4, e4]⟩, fun h => absurd h hc⟩

theorem centerTap_length {n : Network} {devs devs' : List TapDev} (h : centerTap n devs = .ok devs') : devs'.length = devs.length := by
  obtain ⟨infos, devs1, phs, hfind, hlen, hph, hrun⟩ := centerTap_parts h
  obtain ⟨hidx, herU, hinfo⟩ := tapFinds_ok _ hfind
  have hl1 : devs1.length = devs.length := by simpa using congrArg List.length herU
  rw [← hl1]
  clear hl1 hfind hlen hph hidx herU hinfo
  generalize infos.zip phs = l at hrun
  induction l generalizing devs1 with
  | nil => simp only [tapLoads, Except.ok.injEq] at hrun; rw [hrun]
  | cons x l ih =>
    obtain ⟨info, ph⟩ := x
    unfold tapLoads at hrun
    split at hrun
    · simp at hrun
    · rename_i devs2 h2
      obtain ⟨_, _, _, _, _, _, _, _, heq⟩ := tapLoad_loads h2
      rw [ih devs2 hrun]
      simpa using congrArg List.length heq

/-- C34: After a successful run the phase loads of every load are those for the phases of the nearest transformer above it. The power
over those that are written is the sum over all the phase loads before. Other objects have the phase loads they had. -/
theorem C34_effect (objs : List NetObj) (s : String) (n : Network) (hb : build objs s = .ok n) (devs devs' : List TapDev)
    (h : centerTap n devs = .ok devs') : List.Forall₂ (fun d d' =>
      d'.net = d.net ∧ d'.windings = d.windings ∧
      (d.net.cls ≠ "Load" → d'.phaseLoads = d.phaseLoads ∧ d'.isCenterTap = d.isCenterTap ∧ d'.shares = d.shares) ∧
      (d.net.cls = "Load" → ∃ x es t lines ph, d.net.connecting = some x ∧ Route n.digraph s es x ∧ AboveOn n es t lines ∧
        PhasesOf devs t ph ∧ Retapped ph d.phaseLoads d'.phaseLoads ∧ (∃ v, TotalP d.phaseLoads v) ∧ ∃ v, TotalQ d.phaseLoads v))
      devs devs' := by
  rw [List.forall₂_iff_get]
  refine ⟨(centerTap_length h).symm, fun i h1 h2 => ?_⟩
  obtain ⟨d', hd', g1, g2, g3, g4⟩ := centerTap_at hb h (List.getElem?_eq_getElem h1)
  obtain rfl : d' = devs'[i] := by rw [List.getElem?_eq_getElem h2] at hd'; simpa using hd'.symm
  simp only [List.get_eq_getElem]
  refine ⟨g1, g2, g3, fun hc => ?_⟩
  obtain ⟨x, es, t, lines, ph, tr, k1, k2, k3, k4, k5, k6, k7, _⟩ := g4 hc
  exact ⟨x, es, t, lines, ph, k1, k2, k3, k4, k5, k6, k7⟩

theorem totalP_unique {pls : List PhaseLoad} {v v' : ℚ} (h : TotalP pls v) (h' : TotalP pls v') : v = v' := by
  obtain ⟨vs, h1, rfl⟩ := h
  obtain ⟨vs', h2, rfl⟩ := h'
  rw [h1] at h2
  rw [List.map_injective_iff.2 (Option.some_injective ℚ) h2]

theorem totalQ_unique {pls : List PhaseLoad} {v v' : ℚ} (h : TotalQ pls v) (h' : TotalQ pls v') : v = v' := by
  obtain ⟨vs, h1, rfl⟩ := h
  obtain ⟨vs', h2, rfl⟩ := h'
  rw [h1] at h2
  rw [List.map_injective_iff.2 (Option.some_injective ℚ) h2]

/-- C34: if no phase load of a load was dropped before, the power that is written for it does not change, and the phases that are written
for it are those of the transformer. -/
theorem C34_conserves_partial (objs : List NetObj) (s : String) (n : Network) (hb : build objs s = .ok n) (devs devs' : List TapDev)
    (h : centerTap n devs = .ok devs') : List.Forall₂ (fun d d' => (∀ pl ∈ d.phaseLoads, pl.drop = false) →
      (∀ v, TotalP (active d.phaseLoads) v ↔ TotalP (active d'.phaseLoads) v) ∧
      (∀ v, TotalQ (active d.phaseLoads) v ↔ TotalQ (active d'.phaseLoads) v) ∧
      (d.net.cls = "Load" → ∃ x es t lines ph, d.net.connecting = some x ∧ Route n.digraph s es x ∧ AboveOn n es t lines ∧
        PhasesOf devs t ph ∧ ∀ p, p ∈ (active d'.phaseLoads).map (·.phase) ↔ p ∈ ph)) devs devs' := by
  refine (C34_effect objs s n hb devs devs' h).imp fun d d' ⟨_, _, h1, h2⟩ hdrop => ?_
  have hact : active d.phaseLoads = d.phaseLoads := by
    unfold active
    rw [List.filter_eq_self]
    intro pl hpl; simp [hdrop pl hpl]
  rw [hact]
  by_cases hc : d.net.cls = "Load"
  · obtain ⟨x, es, t, lines, ph, k1, k2, k3, k4, k5, ⟨v, hv⟩, w, hw⟩ := h2 hc
    refine ⟨fun v' => ⟨k5.power v', fun h' => ?_⟩, fun v' => ⟨k5.reactive v', fun h' => ?_⟩, fun _ => ?_⟩
    · rw [totalP_unique h' (k5.power v hv)]; exact hv
    · rw [totalQ_unique h' (k5.reactive w hw)]; exact hw
    · refine ⟨x, es, t, lines, ph, k1, k2, k3, k4, fun p => ⟨fun hp => ?_, fun hp => ?_⟩⟩
      · obtain ⟨pl, hpl, rfl⟩ := List.mem_map.1 hp
        exact k5.phases pl hpl
      · by_cases hin : p ∈ d.phaseLoads.map (·.phase)
        · exact k5.stays p hp (.inl (by rw [hact]; exact hin))
        · exact k5.stays p hp (.inr hin)
  · have heq : active d'.phaseLoads = d.phaseLoads := by rw [(h1 hc).1, hact]
    rw [heq]
    exact ⟨fun _ => Iff.rfl, fun _ => Iff.rfl, fun h => absurd h hc⟩

/-- C34: a load becomes a center tap load iff the nearest transformer above it is a center tap transformer. -/
theorem C34_tag (objs : List NetObj) (s : String) (n : Network) (hb : build objs s = .ok n) (devs devs' : List TapDev)
    (hnames : (devs.filterMap (·.net.name)).Nodup) (h : centerTap n devs = .ok devs') : List.Forall₂ (fun d d' =>
      d.net.cls = "Load" → ∃ x es t lines, d.net.connecting = some x ∧ Route n.digraph s es x ∧ AboveOn n es t lines ∧
        ∀ tr ∈ devs, t ≠ none → tr.net.name = t → tr.net.cls ≠ "Load" → d'.isCenterTap = (d.isCenterTap || tr.isCenterTap) ∧
          d'.shares = if tr.isCenterTap then some (1 / 2, 1 / 2, 0) else d.shares)
      devs devs' := by
  rw [List.forall₂_iff_get]
  refine ⟨(centerTap_length h).symm, fun i h1 h2 => ?_⟩
  obtain ⟨d', hd', g1, g2, g3, g4⟩ := centerTap_at hb h (List.getElem?_eq_getElem h1)
  obtain rfl : d' = devs'[i] := by rw [List.getElem?_eq_getElem h2] at hd'; simpa using hd'.symm
  simp only [List.get_eq_getElem]
  intro hc
  obtain ⟨x, es, t, lines, ph, tr, k1, k2, k3, k4, k5, k6, k7, k8, k9⟩ := g4 hc
  refine ⟨x, es, t, lines, k1, k2, k3, fun tr' htr' hne hn hcls => ?_⟩
  obtain ⟨y, rfl⟩ := Option.ne_none_iff_exists'.1 hne
  rw [named_eq hnames htr' hn] at k8
  simp only [Except.ok.injEq] at k8
  subst k8
  exact k9 hcls

/-! ### Wires -/

theorem centerTap_net {n : Network} {devs devs' : List TapDev} (h : centerTap n devs = .ok devs') : devs'.map (·.net) = devs.map (·.net) := by
  obtain ⟨infos, devs1, phs, hfind, hlen, hph, hrun⟩ := centerTap_parts h
  obtain ⟨hidx, herU, hinfo⟩ := tapFinds_ok _ hfind
  have h1 : devs1.map (·.net) = devs.map (·.net) := by
    have := congrArg (List.map TapDev.net) herU
    rw [List.map_map, List.map_map] at this
    exact this
  rw [← h1]
  clear h1 hfind hlen hph hidx herU hinfo
  generalize infos.zip phs = l at hrun
  induction l generalizing devs1 with
  | nil => simp only [tapLoads, Except.ok.injEq] at hrun; rw [hrun]
  | cons x l ih =>
    obtain ⟨info, ph⟩ := x
    unfold tapLoads at hrun
    split at hrun
    · simp at hrun
    · rename_i devs2 h2
      obtain ⟨tr, load, pls', _, hl, _, _, _, heq⟩ := tapLoad_loads h2
      rw [ih devs2 hrun]
      have := congrArg (List.map TapDev.net) heq
      rw [List.map_map, List.map_set, List.map_map] at this
      have e1 : (TapDev.net ∘ erW) = TapDev.net := rfl
      rw [e1] at this
      rw [this]
      apply set_self
      rw [List.getElem?_map, hl]
      simp only [Option.map_some, Option.some.injEq, erW]
      unfold TapDev.tagged
      split <;> rfl

/-- C34: On the lines between a load and the nearest transformer above it, the wires that are written become neutral ones and those of the
phases of the transformer. All other lines keep their wires. -/
theorem C34_wires (s : String) (n : Network) (devs devs' : List TapDev) (hb : build (devs.map (·.net)) s = .ok n)
    (hnames : (devs.filterMap (·.net.name)).Nodup) (h : centerTap n devs = .ok devs') : List.Forall₂ (fun d d' =>
      ∀ x, d.net.name = some x →
        (∀ load ∈ devs, load.net.cls = "Load" → ∀ y es t lines, load.net.connecting = some y → Route n.digraph s es y →
          AboveOn n es t lines → some x ∈ lines → ∃ ph, PhasesOf devs t ph ∧ Rewired ph d.wires d'.wires) ∧
        ((∀ load ∈ devs, load.net.cls = "Load" → ∀ y es t lines, load.net.connecting = some y → Route n.digraph s es y →
          AboveOn n es t lines → some x ∉ lines) → d'.wires = d.wires)) devs devs' := by
  have hnet := centerTap_net h
  obtain ⟨infos, devs1, phs, hfind, hlen, hph, hrun⟩ := centerTap_parts h
  obtain ⟨hidx, herU, hinfo⟩ := tapFinds_ok _ hfind
  have hnames' : ((devs.map (·.net)).filterMap (·.name)).Nodup := by
    rw [List.filterMap_map]; exact hnames
  have hnames2 : (devs'.filterMap (·.net.name)).Nodup := by
    have : devs'.filterMap (·.net.name) = (devs'.map (·.net)).filterMap (·.name) := by rw [List.filterMap_map]; rfl
    rw [this, hnet]; exact hnames'
  -- what is known of each load
  have habove : ∀ info ∈ infos, ∃ d ∈ devs, d.net.cls = "Load" ∧ ∃ y es, d.net.connecting = some y ∧ Route n.digraph s es y ∧
      AboveOn n es info.trafo info.lines := by
    intro info hi
    obtain ⟨d, hd, hup⟩ := hinfo info hi
    have hm : info.idx ∈ loadIndices devs := by rw [← hidx]; exact List.mem_map.2 ⟨info, hi, rfl⟩
    obtain ⟨d2, hd2, hc⟩ := mem_loadIndices.1 hm
    obtain rfl : d = d2 := by rw [hd] at hd2; simpa using hd2
    obtain ⟨y, es, h1, h2, h3⟩ := tapUp_ok hb hup
    exact ⟨d, List.mem_of_getElem? hd, hc, y, es, h1, h2, h3⟩
  rw [List.forall₂_iff_get]
  refine ⟨(centerTap_length h).symm, fun i h1 h2 => ?_⟩
  simp only [List.get_eq_getElem]
  intro x hx
  have hx' : devs'[i].net.name = some x := by
    have : (devs'.map (·.net))[i]? = (devs.map (·.net))[i]? := by rw [hnet]
    rw [List.getElem?_map, List.getElem?_map, List.getElem?_eq_getElem h1, List.getElem?_eq_getElem h2] at this
    simp only [Option.map_some, Option.some.injEq] at this
    rw [this]; exact hx
  have w0 : wiresOf devs (some x) = .ok devs[i].wires := by
    unfold wiresOf
    rw [named_eq (name := fun d : TapDev => d.net.name) hnames (List.getElem_mem h1) hx]; rfl
  have w1 : wiresOf devs1 (some x) = .ok devs[i].wires := by
    rw [← w0]
    apply wiresOf_congr
    have := congrArg (List.map fun d : TapDev => (d.net.name, d.wires)) herU
    rw [List.map_map, List.map_map] at this
    exact this
  have w2 : wiresOf devs' (some x) = .ok devs'[i].wires := by
    unfold wiresOf
    rw [named_eq (name := fun d : TapDev => d.net.name) hnames2 (List.getElem_mem h2) hx']; rfl
  constructor
  · intro load hload hcls y es t lines hy hr ha hxl
    obtain ⟨j, hj⟩ := List.mem_iff_getElem?.1 hload
    have hm : j ∈ infos.map (·.idx) := by rw [hidx]; exact mem_loadIndices.2 ⟨load, hj, hcls⟩
    obtain ⟨info, hi, rfl⟩ := List.mem_map.1 hm
    obtain ⟨d2, hd2, hup⟩ := hinfo info hi
    obtain rfl : load = d2 := by rw [hj] at hd2; simpa using hd2
    have hyd : y ∈ diNodes n.digraph := by
      rw [hy] at hup
      unfold tapUp at hup
      simp only at hup
      split at hup
      · rename_i hany
        obtain ⟨e, he, hm⟩ := List.any_eq_true.1 hany
        unfold diNodes
        exact List.mem_flatMap.2 ⟨e, he, by simp at hm ⊢; rcases hm with h | h <;> simp [h]⟩
      · simp at hup
    have hup' := (tapUp_route hb hyd hr).1 t lines ha
    rw [← hy, hup] at hup'
    simp only [Option.some.injEq, Except.ok.injEq, Prod.mk.injEq] at hup'
    obtain ⟨h3, h4⟩ := hup'
    rw [← zip_fst hlen] at hi
    obtain ⟨⟨info', ph⟩, hz, rfl⟩ := List.mem_map.1 hi
    simp only at h3 h4
    refine ⟨ph, by rw [← h3]; exact trafoPhases_ok (hph _ _ hz), ?_⟩
    have hsame : ∀ z ∈ infos.zip phs, some x ∈ z.1.lines → z.2 = ph := by
      rintro ⟨info2, ph2⟩ hz2 hx2
      obtain ⟨d3, hd3, hc3, y3, es3, k1, k2, k3⟩ := habove info2 (List.of_mem_zip hz2).1
      have ht := same_trafo hb hnames' k2 hr k3 ha hx2 hxl
      have p1 := hph _ _ hz2
      have p2 := hph _ _ hz
      rw [ht, ← h3, p2] at p1
      simpa using p1.symm
    obtain ⟨ws, ws', j1, j2, j3⟩ := (tapLoads_wires _ hrun (some x) ph hsame).1 ⟨_, hz, by rw [h4]; exact hxl⟩
    rw [w1] at j1; rw [w2] at j3
    simp only [Except.ok.injEq] at j1 j3
    rw [j1, j3]
    exact wireFix_rewired j2
  · intro hno
    have hno' : ∀ z ∈ infos.zip phs, some x ∉ z.1.lines := by
      rintro ⟨info2, ph2⟩ hz2 hx2
      obtain ⟨d3, hd3, hc3, y3, es3, k1, k2, k3⟩ := habove info2 (List.of_mem_zip hz2).1
      exact hno d3 hd3 hc3 y3 es3 _ _ k1 k2 k3 hx2
    have := (tapLoads_wires _ hrun (some x) [] (fun z hz hx => absurd hx (hno' z hz))).2 hno'
    rw [w1, w2] at this
    simpa using this

/-! ### The name of the transformer -/

theorem tapFinds_upstream {n : Network} (is : List Nat) (hnd : is.Nodup) : ∀ {devs devs' : List TapDev} {infos : List TapInfo},
    (devs.filterMap (·.net.name)).Nodup → (∀ d ∈ devs, d.net.name ≠ none) →
    tapFinds n is devs = .ok (infos, devs') → ∀ (j : Nat) (d : TapDev), devs[j]? = some d → ∃ d', devs'[j]? = some d' ∧
      (j ∉ is → d'.upstream = d.upstream) ∧ ∀ info ∈ infos, info.idx = j → d'.upstream = info.trafo := by
  induction is with
  | nil =>
    intro devs devs' infos _ _ h j d hd
    simp only [tapFinds, Except.ok.injEq, Prod.mk.injEq] at h
    obtain ⟨rfl, rfl⟩ := h
    exact ⟨d, hd, fun _ => rfl, by simp⟩
  | cons i is ih =>
    intro devs devs' infos hnames hall h j d hd
    rw [List.nodup_cons] at hnd
    unfold tapFinds at h
    split at h
    · simp at h
    · rename_i info devs1 h1
      split at h
      · simp at h
      · rename_i infos2 devs2 h2
        simp only [Except.ok.injEq, Prod.mk.injEq] at h
        obtain ⟨rfl, rfl⟩ := h
        obtain ⟨hii, herU, d0, hd0, hup, hdevs1⟩ := tapFind_ok h1
        obtain ⟨x, hx⟩ := Option.ne_none_iff_exists'.1 (hall d0 (List.mem_of_getElem? hd0))
        have hn1 : devs1.map (·.net) = devs.map (·.net) := by
          have := congrArg (List.map TapDev.net) herU
          rw [List.map_map, List.map_map] at this
          exact this
        have hnames1 : (devs1.filterMap (·.net.name)).Nodup := by
          have : devs1.filterMap (·.net.name) = (devs1.map (·.net)).filterMap (·.name) := by rw [List.filterMap_map]; rfl
          rw [this, hn1, List.filterMap_map]; exact hnames
        have hall1 : ∀ d ∈ devs1, d.net.name ≠ none := by
          intro d hd
          have : d.net ∈ devs.map (·.net) := by rw [← hn1]; exact List.mem_map.2 ⟨d, hd, rfl⟩
          obtain ⟨d', hd', he⟩ := List.mem_map.1 this
          rw [← he]; exact hall d' hd'
        rw [hx, updateNamed_eq (name := fun d : TapDev => d.net.name) hnames] at hdevs1
        have hd1 : devs1[j]? = some (if d.net.name = some x then { d with upstream := info.trafo } else d) := by
          rw [hdevs1, List.getElem?_map, hd]; rfl
        obtain ⟨d', hd', k1, k2⟩ := ih hnd.2 hnames1 hall1 h2 j _ hd1
        obtain ⟨hidx2, _, _⟩ := tapFinds_ok _ h2
        refine ⟨d', hd', fun hj => ?_, fun info' hi' hij => ?_⟩
        · simp only [List.mem_cons, not_or] at hj
          rw [k1 hj.2]
          rw [if_neg]
          intro hdx
          have : d = d0 := name_inj (name := fun d : TapDev => d.net.name) hnames (List.mem_of_getElem? hd) (List.mem_of_getElem? hd0) hdx hx
          subst this
          apply hj.1
          have hlt := (List.getElem?_eq_some_iff.1 hd).1
          have hlt0 := (List.getElem?_eq_some_iff.1 hd0).1
          by_contra hne
          have hk : (devs.map (·.net.name)).Nodup := by
            have hmm : devs.map (·.net.name) = (devs.filterMap (·.net.name)).map some := by
              clear * - hall
              induction devs with
              | nil => rfl
              | cons a l ihl =>
                obtain ⟨y, hy⟩ := Option.ne_none_iff_exists'.1 (hall a List.mem_cons_self)
                rw [List.map_cons, List.filterMap_cons, hy, List.map_cons, ihl fun d hd => hall d (List.mem_cons_of_mem _ hd)]
            rw [hmm]
            exact hnames.map (Option.some_injective _)
          apply hne
          apply (List.nodup_iff_injective_get.1 hk |> fun inj => ?_)
          have e1 : (devs.map (·.net.name))[j]? = some (some x) := by rw [List.getElem?_map, hd]; simp [hdx]
          have e2 : (devs.map (·.net.name))[i]? = some (some x) := by rw [List.getElem?_map, hd0]; simp [hx]
          exact (List.getElem?_inj (by simpa using hlt) hk).1 (by rw [e1, e2])
        · rcases List.mem_cons.1 hi' with rfl | hi'
          · rw [hii] at hij
            subst hij
            rw [k1 hnd.1]
            obtain rfl : d = d0 := by rw [hd] at hd0; simpa using hd0
            rw [if_pos hx]
          · exact k2 info' hi' hij

/-- C34: the name of the nearest transformer above is stored in every load, and only there. -/
theorem C34_upstream (objs : List NetObj) (s : String) (n : Network) (hb : build objs s = .ok n) (devs devs' : List TapDev)
    (hnames : (devs.filterMap (·.net.name)).Nodup) (hall : ∀ d ∈ devs, d.net.name ≠ none)
    (h : centerTap n devs = .ok devs') : List.Forall₂ (fun d d' =>
      (d.net.cls ≠ "Load" → d'.upstream = d.upstream) ∧
      (d.net.cls = "Load" → ∃ x es t lines, d.net.connecting = some x ∧ Route n.digraph s es x ∧ AboveOn n es t lines ∧ d'.upstream = t))
      devs devs' := by
  have hlen' := centerTap_length h
  obtain ⟨infos, devs1, phs, hfind, hlen, hph, hrun⟩ := centerTap_parts h
  obtain ⟨hidx, herU, hinfo⟩ := tapFinds_ok _ hfind
  have hup2 : devs'.map (·.upstream) = devs1.map (·.upstream) := by
    clear hfind hlen hph hidx herU hinfo hlen'
    generalize infos.zip phs = l at hrun
    induction l generalizing devs1 with
    | nil => simp only [tapLoads, Except.ok.injEq] at hrun; rw [hrun]
    | cons x l ih =>
      obtain ⟨info, ph⟩ := x
      unfold tapLoads at hrun
      split at hrun
      · simp at hrun
      · rename_i devs2 h2
        obtain ⟨tr, load, pls', _, hl, _, _, _, heq⟩ := tapLoad_loads h2
        rw [ih devs2 hrun]
        have := congrArg (List.map TapDev.upstream) heq
        rw [List.map_map, List.map_set, List.map_map] at this
        have e1 : (TapDev.upstream ∘ erW) = TapDev.upstream := rfl
        rw [e1] at this
        rw [this]
        apply set_self
        rw [List.getElem?_map, hl]
        simp only [Option.map_some, Option.some.injEq, erW]
        unfold TapDev.tagged
        split <;> rfl
  rw [List.forall₂_iff_get]
  refine ⟨hlen'.symm, fun i h1 h2 => ?_⟩
  simp only [List.get_eq_getElem]
  obtain ⟨d1, hd1, k1, k2⟩ := tapFinds_upstream _ (loadIndices_nodup devs) hnames hall hfind i _ (List.getElem?_eq_getElem h1)
  have hfin : devs'[i].upstream = d1.upstream := by
    have : (devs'.map (·.upstream))[i]? = (devs1.map (·.upstream))[i]? := by rw [hup2]
    rw [List.getElem?_map, List.getElem?_map, hd1, List.getElem?_eq_getElem h2] at this
    simpa using this
  rw [hfin]
  constructor
  · intro hc
    apply k1
    intro hm
    obtain ⟨d2, hd2, hc2⟩ := mem_loadIndices.1 hm
    rw [List.getElem?_eq_getElem h1] at hd2
    simp only [Option.some.injEq] at hd2
    rw [← hd2] at hc2
    exact hc hc2
  · intro hc
    have hm : i ∈ infos.map (·.idx) := by rw [hidx]; exact mem_loadIndices.2 ⟨_, List.getElem?_eq_getElem h1, hc⟩
    obtain ⟨info, hi, hii⟩ := List.mem_map.1 hm
    obtain ⟨d2, hd2, hup⟩ := hinfo info hi
    rw [hii, List.getElem?_eq_getElem h1] at hd2
    simp only [Option.some.injEq] at hd2
    rw [← hd2] at hup
    obtain ⟨x, es, j1, j2, j3⟩ := tapUp_ok hb hup
    exact ⟨x, es, _, _, j1, j2, j3, k2 info hi hii⟩

/-- C34: one load without a transformer on its route from the source makes the whole call fail. -/
theorem C34_noTransformer (objs : List NetObj) (s : String) (n : Network) (hb : build objs s = .ok n) (devs : List TapDev) (d : TapDev)
    (hd : d ∈ devs) (hc : d.net.cls = "Load") (x : String) (hx : d.net.connecting = some x) (es : List Edge)
    (hr : Route n.digraph s es x) (hno : ∀ e ∈ es, ∀ nm, ¬ TrafoEdge n e nm) : ∃ e, centerTap n devs = .error e := by
  cases h : centerTap n devs with
  | error e => exact ⟨e, rfl⟩
  | ok devs' =>
    obtain ⟨i, hi⟩ := List.mem_iff_getElem?.1 hd
    obtain ⟨d', _, _, _, _, g4⟩ := centerTap_at hb h hi
    obtain ⟨y, es', t, lines, _, _, k1, k2, ⟨pre, e, post, rfl, ht, _⟩, _⟩ := g4 hc
    obtain rfl : x = y := by rw [hx] at k1; simpa using k1
    have hne : es = pre ++ e :: post := by
      have hxd : x ∈ diNodes n.digraph := by
        have := k2
        generalize hl : pre ++ e :: post = l at this
        cases this with
        | nil => simp at hl
        | snoc h1 h2 h3 => unfold diNodes; exact List.mem_flatMap.2 ⟨_, h2, by simp⟩
      obtain ⟨es0, _, huniq⟩ := C18_route objs s n hb x hxd
      rw [huniq es hr, huniq _ k2]
    rw [hne] at hno
    exact absurd ht (hno e (by simp) t)

/-! ### Examples -/

/-- a line with wires of the phases `ph` -/
def exTLine (x f t : String) (ph : List (Option String)) : TapDev where
  net := { cls := "Line", name := some x, fromEl := some f, toEl := some t, isLine := true }
  wires := ph.map (⟨·, false⟩)

/-- a node -/
def exTNode (x : String) : TapDev where
  net := { cls := "Node", name := some x }

/-- a transformer -/
def exTrafo (x f t : String) (ws : List (List (Option String))) (tap : Bool) : TapDev where
  net := { cls := "PowerTransformer", name := some x, fromEl := some f, toEl := some t }
  windings := ws
  isCenterTap := tap

/-- a load -/
def exTLoad (x c : String) (pls : List PhaseLoad) : TapDev where
  net := { cls := "Load", name := some x, connecting := some c }
  phaseLoads := pls

/-- line from `src` to `a`, center tap transformer on phase `C` to `b`, line to `c`, where the load of phases `A` and `B` is -/
def exTap : List TapDev :=
  [exTNode "src", exTLine "l1" "src" "a" [some "A", some "B", some "C"], exTNode "a",
   exTrafo "t" "a" "b" [[some "C"], [some "C"], [some "C"]] true, exTNode "b",
   exTLine "l2" "b" "c" [some "A", some "B", some "N"], exTNode "c",
   exTLoad "load" "c" [⟨some "A", some 1, some 0, false⟩, ⟨some "B", some 2, some 1, false⟩]]

/-- the network of `exTap` -/
def exTapNet : Network :=
  ⟨⟨["a", "src", "b", "c", "load"],
    [⟨"src", "a", some ("Line", some "l1"), some 0⟩, ⟨"a", "b", some ("PowerTransformer", some "t"), some 0⟩,
     ⟨"b", "c", some ("Line", some "l2"), some 0⟩, ⟨"c", "load", none, none⟩]⟩,
   [⟨"src", "a", some ("Line", some "l1"), none⟩, ⟨"a", "b", some ("PowerTransformer", some "t"), none⟩,
    ⟨"b", "c", some ("Line", some "l2"), none⟩, ⟨"c", "load", none, none⟩]⟩

/-- `exTap` after the run -/
def exTap1 : List TapDev :=
  [exTNode "src", exTLine "l1" "src" "a" [some "A", some "B", some "C"], exTNode "a",
   exTrafo "t" "a" "b" [[some "C"], [some "C"], [some "C"]] true, exTNode "b",
   { exTLine "l2" "b" "c" [] with wires := [⟨some "A", true⟩, ⟨some "B", true⟩, ⟨some "N", false⟩, ⟨some "C", false⟩] }, exTNode "c",
   { exTLoad "load" "c" [⟨some "A", some 3, some 1, true⟩, ⟨some "B", some 3, some 1, true⟩, ⟨some "C", some 3, some 1, false⟩] with
     isCenterTap := true, shares := some (1 / 2, 1 / 2, 0), upstream := some "t" }]

/-- the two phases become one, the phase of the transformer -/
theorem exTap_run : centerTap exTapNet exTap = .ok exTap1 := by decide +kernel

/-- the hypotheses of the theorems hold for it -/
example : build (exTap.map (·.net)) "src" = .ok exTapNet ∧ (exTap.filterMap (·.net.name)).Nodup ∧ (∀ d ∈ exTap, d.net.name ≠ none) ∧
    (∀ d ∈ exTap, ∀ pl ∈ d.phaseLoads, pl.drop = false) := ⟨by rfl, by decide +kernel, by decide +kernel, by decide +kernel⟩

/-- the route to the load, and what is above it -/
theorem exTap_route : Route exTapNet.digraph "src" [⟨"src", "a", some ("Line", some "l1"), none⟩,
      ⟨"a", "b", some ("PowerTransformer", some "t"), none⟩, ⟨"b", "c", some ("Line", some "l2"), none⟩] "c" ∧
    AboveOn exTapNet [⟨"src", "a", some ("Line", some "l1"), none⟩,
      ⟨"a", "b", some ("PowerTransformer", some "t"), none⟩, ⟨"b", "c", some ("Line", some "l2"), none⟩] (some "t") [some "l2"] := by
  refine ⟨?_, [⟨"src", "a", some ("Line", some "l1"), none⟩], ⟨"a", "b", some ("PowerTransformer", some "t"), none⟩,
    [⟨"b", "c", some ("Line", some "l2"), none⟩], rfl, (by unfold TrafoEdge; decide +kernel), ?_, by decide +kernel⟩
  · exact Route.snoc (es := [⟨"src", "a", some ("Line", some "l1"), none⟩, ⟨"a", "b", some ("PowerTransformer", some "t"), none⟩])
      (u := "b") (e := ⟨"b", "c", some ("Line", some "l2"), none⟩)
      (Route.snoc (es := [⟨"src", "a", some ("Line", some "l1"), none⟩]) (u := "a") (e := ⟨"a", "b", some ("PowerTransformer", some "t"), none⟩)
        (Route.snoc (es := []) (u := "src") (e := ⟨"src", "a", some ("Line", some "l1"), none⟩) .nil (by decide +kernel) rfl)
        (by decide +kernel) rfl) (by decide +kernel) rfl
  · intro e he nm
    simp only [List.mem_singleton] at he
    subst he
    intro h
    have h' : some ("Line", some "l2") = some ("PowerTransformer", nm) := by rw [← h]; rfl
    simp at h'

/-- C34 fails for a model that was processed before: the dropped phase loads have got the power of the others, and all are added up, so
that the power written for the load becomes larger with each call. -/
theorem C34_repeat_violated : ∃ devs1 devs2 load1 load2, build (exTap.map (·.net)) "src" = .ok exTapNet ∧
    centerTap exTapNet exTap = .ok devs1 ∧ centerTap exTapNet devs1 = .ok devs2 ∧
    devs1[7]? = some load1 ∧ devs2[7]? = some load2 ∧ TotalP (active load1.phaseLoads) 3 ∧ TotalP (active load2.phaseLoads) 9 :=
  ⟨exTap1, exTap1.set 7 { exTLoad "load" "c" [⟨some "A", some 9, some 3, true⟩, ⟨some "B", some 9, some 3, true⟩,
      ⟨some "C", some 9, some 3, false⟩] with isCenterTap := true, shares := some (1 / 2, 1 / 2, 0), upstream := some "t" },
    _, _, by rfl, exTap_run, by decide +kernel, rfl, rfl, ⟨[3], rfl, by decide +kernel⟩, ⟨[9], rfl, by decide +kernel⟩⟩

/-- no transformer between the load and the source -/
def exNoTap : List TapDev :=
  [exTNode "src", exTLine "l1" "src" "a" [some "A"], exTNode "a", exTLoad "load" "a" [⟨some "A", some 1, some 0, false⟩]]

def exNoTapNet : Network :=
  ⟨⟨["a", "src", "load"], [⟨"src", "a", some ("Line", some "l1"), some 0⟩, ⟨"a", "load", none, none⟩]⟩,
   [⟨"src", "a", some ("Line", some "l1"), none⟩, ⟨"a", "load", none, none⟩]⟩

/-- C34 fails for a load that has no transformer above it, as at the voltage of the source: the exception of `next` ends the call, and the
other loads are not processed. -/
theorem C34_source_violated : build (exNoTap.map (·.net)) "src" = .ok exNoTapNet ∧ centerTap exNoTapNet exNoTap = .error .stopIteration :=
  ⟨by rfl, by decide +kernel⟩

/-- the only load of a phase of the transformer was dropped before: `ZeroDivisionError` -/
example : centerTap exTapNet (exTap.set 7 (exTLoad "load" "c" [⟨some "C", some 1, some 0, true⟩])) = .error .zeroDivisionError := by
  decide +kernel
/-- power that is not set -/
example : centerTap exTapNet (exTap.set 7 (exTLoad "load" "c" [⟨some "C", none, some 0, true⟩])) = .error .typeError := by decide +kernel
example : centerTap exTapNet (exTap.set 7 (exTLoad "load" "c" [⟨some "C", some 1, none, true⟩])) = .error .typeError := by decide +kernel
/-- no phase loads to copy -/
example : centerTap exTapNet (exTap.set 7 (exTLoad "load" "c" [])) = .error .indexError := by decide +kernel
/-- no wires to copy -/
example : centerTap exTapNet (exTap.set 5 (exTLine "l2" "b" "c" [])) = .error .indexError := by decide +kernel
/-- not connected with the source -/
example : centerTap exTapNet (exTap.set 7 (exTLoad "load" "x" [])) = .error .networkXError := by decide +kernel
/-- windings with different numbers of phases -/
example : centerTap exTapNet (exTap.set 3 (exTrafo "t" "a" "b" [[some "C"], [some "A", some "B"]] true)) = .error .valueError := by
  decide +kernel
/-- a phase that is not set -/
example : centerTap exTapNet (exTap.set 3 (exTrafo "t" "a" "b" [[some "C"], [none]] true)) = .error .valueError := by decide +kernel

end Ditto.Net
