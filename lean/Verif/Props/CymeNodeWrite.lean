import Verif.Spec.CymeNodeWrite
import Verif.Props.CymeNodes
import Verif.Props.CymeRegBack
import Verif.Props.CymeSources
import Verif.Props.CymeLineCodes
import Mathlib.Data.List.Induction

/-! C124: nodes written to CYME files -/
namespace Ditto.Cyme
open Ditto Glm Spec

section
variable {N : Type}

/-- the row of a node with at most one position -/
def rowFor (pr : N → Text) (p : NodeIn N × Text) : List Text :=
  match p.1.points with
  | [] => [p.2, "0".toList, "0".toList]
  | q :: _ => [p.2, pr q.1, pr q.2]

/-- the row of a bus -/
def busFor (pr : N → Text) (p : NodeIn N × Text) : List Text :=
  match p.1.points with
  | a :: q :: ps => [p.2, pr a.1, pr a.2, pr ((q :: ps).getLast (List.cons_ne_nil _ _)).1, pr ((q :: ps).getLast (List.cons_ne_nil _ _)).2, "2".toList]
  | _ => []

/-- the connectors of a bus -/
def connectorsFor (pr : N → Text) (m : List ((Text × Int) × Text)) (p : NodeIn N × Text) : List (List Text) :=
  match p.1.points with
  | _ :: q :: ps => connectorRows pr m p.2 0 (q :: ps).dropLast
  | _ => []

/-- nodes with at most one position, and the others -/
def plainNodes (ns : List (NodeIn N)) : List (NodeIn N × Text) := (live ns).filter fun p => decide (p.1.points.length < 2)
def busNodes (ns : List (NodeIn N)) : List (NodeIn N × Text) := (live ns).filter fun p => decide (2 ≤ p.1.points.length)

theorem nodeRows_of (pr : N → Text) (m : List ((Text × Int) × Text)) (ns : List (NodeIn N)) :
    (nodeRows pr m ns).rows = (plainNodes ns).map (rowFor pr) ∧ (nodeRows pr m ns).buses = (busNodes ns).map (busFor pr) ∧
      (nodeRows pr m ns).connectors = (busNodes ns).flatMap (connectorsFor pr m) := by
  induction ns using List.reverseRecOn with
  | nil => exact ⟨rfl, rfl, rfl⟩
  | append_singleton ns n ih =>
    obtain ⟨h1, h2, h3⟩ := ih
    have hrun : nodeRows pr m (ns ++ [n]) = nodeStep pr m (nodeRows pr m ns) n := by
      unfold nodeRows
      rw [List.foldl_append]
      rfl
    rw [hrun]
    unfold plainNodes busNodes live at *
    rw [List.filterMap_append, List.filter_append, List.filter_append, List.map_append, List.map_append, List.flatMap_append]
    unfold nodeStep
    cases hd : n.dropped with
    | true =>
      rw [List.filterMap_cons_none (by rw [hd]; rfl)]
      simp only [if_true, List.filterMap_nil, List.filter_nil, List.map_nil, List.append_nil, List.flatMap_nil]
      exact ⟨h1, h2, h3⟩
    | false =>
      rw [if_neg (by decide)]
      cases hn : n.name with
      | none =>
        rw [List.filterMap_cons_none (by rw [hd, hn]; rfl)]
        simp only [List.filterMap_nil, List.filter_nil, List.map_nil, List.append_nil, List.flatMap_nil]
        exact ⟨h1, h2, h3⟩
      | some t =>
        rw [List.filterMap_cons_some (b := (n, t)) (by rw [hd, hn]; rfl), List.filterMap_nil]
        dsimp only
        rcases hp : n.points with _ | ⟨p, _ | ⟨q, ps⟩⟩
        · rw [List.filter_cons_of_pos (by rw [hp]; rfl), List.filter_cons_of_neg (by rw [hp]; simp)]
          dsimp only
          simp only [List.filter_nil, List.map_nil, List.append_nil, List.flatMap_nil, List.map_cons]
          refine ⟨?_, h2, h3⟩
          rw [h1]
          unfold rowFor
          rw [hp]
        · rw [List.filter_cons_of_pos (by rw [hp]; rfl), List.filter_cons_of_neg (by rw [hp]; simp)]
          dsimp only
          simp only [List.filter_nil, List.map_nil, List.append_nil, List.flatMap_nil, List.map_cons]
          refine ⟨?_, h2, h3⟩
          rw [h1]
          unfold rowFor
          rw [hp]
        · rw [List.filter_cons_of_neg (by rw [hp]; simp), List.filter_cons_of_pos (by rw [hp]; simp)]
          dsimp only
          simp only [List.filter_nil, List.map_nil, List.append_nil, List.flatMap_nil, List.map_cons, List.flatMap_cons]
          refine ⟨h1, ?_, ?_⟩
          · rw [h2]
            unfold busFor
            rw [hp]
          · rw [h3]
            unfold connectorsFor
            rw [hp]

/-- the columns -/
def nodeCols : List Text := ["NodeID".toList, "CoordX".toList, "CoordY".toList]
def busCols : List Text := ["NodeID".toList, "CoordX1".toList, "CoordY1".toList, "CoordX2".toList, "CoordY2".toList, "Width".toList]
def connectorCols : List Text := ["NodeID".toList, "CoordX".toList, "CoordY".toList, "SectionID".toList]

theorem node_format : FormatLine (nodeFormat ++ ['\n']) nodeCols := by
  refine ⟨by decide, ?_, "FORMAT_NODE".toList, ['\n'], Or.inr (Or.inl rfl), by decide, ⟨[], "_node".toList, by decide⟩, by decide +kernel⟩
  intro c hc
  rw [cellText_iff]
  exact (show ∀ c ∈ nodeCols, c.all (fun x => x ≠ ',' && x ≠ '=' && x ≠ '\n' && x ≠ '\r') = true by decide) c hc

theorem bus_format : FormatLine (busFormat ++ ['\n']) busCols := by
  refine ⟨by decide, ?_, "FORMAT_NODE".toList, ['\n'], Or.inr (Or.inl rfl), by decide, ⟨[], "_node".toList, by decide⟩, by decide +kernel⟩
  intro c hc
  rw [cellText_iff]
  exact (show ∀ c ∈ busCols, c.all (fun x => x ≠ ',' && x ≠ '=' && x ≠ '\n' && x ≠ '\r') = true by decide) c hc

theorem connector_format : FormatLine (connectorFormat ++ ['\n']) connectorCols := by
  refine ⟨by decide, ?_, "FORMAT_NODECONNECTOR".toList, ['\n'], Or.inr (Or.inl rfl), by decide, ⟨[], "_nodeconnector".toList, by decide⟩, by decide +kernel⟩
  intro c hc
  rw [cellText_iff]
  exact (show ∀ c ∈ connectorCols, c.all (fun x => x ≠ ',' && x ≠ '=' && x ≠ '\n' && x ≠ '\r') = true by decide) c hc

theorem cellsLine_join (r : List Text) : cellsLine r = joinCells r := by
  cases r with
  | nil => rfl
  | cons c cs => exact join_commas c cs

theorem cellsLine_row {r : List Text} (h3 : 3 ≤ r.length) (hc : ∀ c ∈ r, CellText c) : RowLine (cellsLine r ++ ['\n']) r := by
  rw [cellsLine_join]
  refine ⟨by omega, hc, ?_, ['\n'], Or.inr (Or.inl rfl), rfl⟩
  rw [List.length_append]
  have := join_length r
  simp only [List.length_cons, List.length_nil]
  omega

theorem rows_lines {rows : List (List Text)} (h : ∀ r ∈ rows, 3 ≤ r.length ∧ ∀ c ∈ r, CellText c) :
    List.Forall₂ RowLine (rows.map fun r => cellsLine r ++ ['\n']) rows := by
  rw [List.forall₂_map_left_iff, List.forall₂_same]
  exact fun r hr => cellsLine_row (h r hr).1 (h r hr).2

theorem zero_text : CellText "0".toList := (cellText_iff _).mpr (by decide)
theorem two_text : CellText "2".toList := (cellText_iff _).mpr (by decide)

theorem rowFor_text {pr : N → Text} (hpr : ∀ x, CellText (pr x)) {p : NodeIn N × Text} (hp : CellText p.2) :
    3 ≤ (rowFor pr p).length ∧ ∀ c ∈ rowFor pr p, CellText c := by
  unfold rowFor
  cases p.1.points with
  | nil =>
    refine ⟨Nat.le_refl _, ?_⟩
    simp only [List.mem_cons, List.not_mem_nil, or_false]
    rintro c (rfl | rfl | rfl)
    exacts [hp, zero_text, zero_text]
  | cons q qs =>
    refine ⟨Nat.le_refl _, ?_⟩
    simp only [List.mem_cons, List.not_mem_nil, or_false]
    rintro c (rfl | rfl | rfl)
    exacts [hp, hpr _, hpr _]

/-- the first position, those between and the last one -/
theorem points_of {p : NodeIn N × Text} (h : 2 ≤ p.1.points.length) :
    ∃ a q ps, p.1.points = a :: q :: ps := by
  rcases hp : p.1.points with _ | ⟨a, _ | ⟨q, ps⟩⟩
  · rw [hp] at h
    exact absurd h (by simp)
  · rw [hp] at h
    exact absurd h (by simp)
  · exact ⟨a, q, ps, rfl⟩

theorem busFor_text {pr : N → Text} (hpr : ∀ x, CellText (pr x)) {p : NodeIn N × Text} (hp : CellText p.2) (h : 2 ≤ p.1.points.length) :
    3 ≤ (busFor pr p).length ∧ ∀ c ∈ busFor pr p, CellText c := by
  obtain ⟨a, q, ps, hpp⟩ := points_of h
  unfold busFor
  rw [hpp]
  refine ⟨by simp, ?_⟩
  simp only [List.mem_cons, List.not_mem_nil, or_false]
  rintro c (rfl | rfl | rfl | rfl | rfl | rfl)
  exacts [hp, hpr _, hpr _, hpr _, hpr _, two_text]

theorem connectorRows_mem {pr : N → Text} {m : List ((Text × Int) × Text)} {name : Text} : ∀ {ps : List (N × N)} {j : Nat} {r : List Text},
    r ∈ connectorRows pr m name j ps → ∃ q ∈ ps, ∃ i, r = [name, pr q.1, pr q.2, connectorSection m name i] := by
  intro ps
  induction ps with
  | nil => intro j r hr; exact (List.not_mem_nil hr).elim
  | cons p ps ih =>
    intro j r hr
    rcases List.mem_cons.mp hr with rfl | hr
    · exact ⟨p, .head _, j, rfl⟩
    · obtain ⟨q, hq, i, h⟩ := ih hr
      exact ⟨q, .tail _ hq, i, h⟩

theorem connectorSection_text {m : List ((Text × Int) × Text)} (hm : ∀ k v, codeOf k m = some v → CellText v) (name : Text) (j : Nat) :
    CellText (connectorSection m name j) := by
  unfold connectorSection
  cases h : codeOf (name, (j : Int)) m with
  | none => exact (cellText_iff []).mpr rfl
  | some v => exact hm _ _ h

theorem connectorsFor_mem {pr : N → Text} {m : List ((Text × Int) × Text)} {p : NodeIn N × Text} {r : List Text} (h : r ∈ connectorsFor pr m p) :
    ∃ q : N × N, ∃ i, r = [p.2, pr q.1, pr q.2, connectorSection m p.2 i] := by
  unfold connectorsFor at h
  rcases hp : p.1.points with _ | ⟨a, _ | ⟨q, ps⟩⟩
  · rw [hp] at h
    exact (List.not_mem_nil h).elim
  · rw [hp] at h
    exact (List.not_mem_nil h).elim
  · rw [hp] at h
    obtain ⟨x, -, i, hr⟩ := connectorRows_mem h
    exact ⟨x, i, hr⟩

theorem mem_plain {ns : List (NodeIn N)} {p : NodeIn N × Text} (h : p ∈ plainNodes ns) : p ∈ live ns ∧ p.1.points.length < 2 := by
  obtain ⟨h1, h2⟩ := List.mem_filter.mp h
  exact ⟨h1, of_decide_eq_true h2⟩

theorem mem_bus {ns : List (NodeIn N)} {p : NodeIn N × Text} (h : p ∈ busNodes ns) : p ∈ live ns ∧ 2 ≤ p.1.points.length := by
  obtain ⟨h1, h2⟩ := List.mem_filter.mp h
  exact ⟨h1, of_decide_eq_true h2⟩

theorem rowFor_key {pr : N → Text} (p : NodeIn N × Text) (hp : Net.pyStrip p.2 = p.2) : keyOf (rowFor pr p) = p.2 := by
  unfold rowFor
  cases p.1.points <;> exact hp

theorem busFor_key {pr : N → Text} {p : NodeIn N × Text} (hp : Net.pyStrip p.2 = p.2) (h : 2 ≤ p.1.points.length) : keyOf (busFor pr p) = p.2 := by
  obtain ⟨a, q, ps, hpp⟩ := points_of h
  unfold busFor
  rw [hpp]
  exact hp

end

section
variable {N : Type} [Zero N]

/-- the printed positions are read as what they are -/
def PointsRead {N : Type} (num : Text → Option N) (pr : N → Text) (ps : List (N × N)) : Prop :=
  ∀ q ∈ ps, num (pr q.1) = some q.1 ∧ num (pr q.2) = some q.2

/-- the first cell of a row decides its only position -/
theorem plain_back {num : Text → Option N} {pr : N → Text} (h0 : num "0".toList = some 0) {p : NodeIn N × Text} (hread : PointsRead num pr p.1.points)
    (hp : Net.pyStrip p.2 = p.2) (hl : p.1.points.length < 2) {n : NodeRec N} (h : NodeOk num nodeCols (rowFor pr p) n) : n = nodeBack p.1 p.2 := by
  obtain ⟨h1, ⟨q, ⟨⟨c, hc, hcx⟩, d, hd, hdy⟩, hq⟩, hr⟩ := h
  rw [rowFor_key p hp] at h1
  have hv : n.voltage = none := hr.2 (no_cell (by decide))
  obtain ⟨name, points, voltage⟩ := n
  dsimp only at h1 hv hq
  subst h1 hv hq
  unfold nodeBack
  rcases hpp : p.1.points with _ | ⟨a, _ | ⟨b, ps⟩⟩
  · unfold rowFor at hc hd
    rw [hpp] at hc hd
    have e1 := cell_unique hc (cell_at 1 (by decide) rfl (by decide))
    have e2 := cell_unique hd (cell_at 2 (by decide) rfl (by decide))
    rw [e1, h0] at hcx
    rw [e2, h0] at hdy
    rw [if_pos rfl]
    obtain ⟨x, y⟩ := q
    have hx : 0 = x := Option.some.inj hcx
    have hy : 0 = y := Option.some.inj hdy
    rw [← hx, ← hy]
  · unfold rowFor at hc hd
    rw [hpp] at hc hd
    have e1 := cell_unique hc (cell_at 1 (by decide) rfl (by decide))
    have e2 := cell_unique hd (cell_at 2 (by decide) rfl (by decide))
    rw [e1, (hread a (hpp ▸ .head _)).1] at hcx
    rw [e2, (hread a (hpp ▸ .head _)).2] at hdy
    rw [if_neg (List.cons_ne_nil _ _)]
    obtain ⟨x, y⟩ := q
    have hx : a.1 = x := Option.some.inj hcx
    have hy : a.2 = y := Option.some.inj hdy
    rw [← hx, ← hy]
  · rw [hpp] at hl
    exact absurd hl (by simp)

omit [Zero N] in
theorem mid_back {num : Text → Option N} {pr : N → Text} {m : List ((Text × Int) × Text)} {name : Text} :
    ∀ {ps : List (N × N)} {j : Nat} {mid : List (N × N)}, PointsRead num pr ps →
    List.Forall₂ (fun c q => Point num connectorCols c "coordx".toList "coordy".toList q) (connectorRows pr m name j ps) mid → mid = ps := by
  intro ps
  induction ps with
  | nil =>
    intro j mid hread h
    cases h
    rfl
  | cons p ps ih =>
    intro j mid hread h
    rw [connectorRows, List.forall₂_cons_left_iff] at h
    obtain ⟨q, mid', ⟨⟨c, hc, hcx⟩, d, hd, hdy⟩, hrest, rfl⟩ := h
    have e1 := cell_unique hc (cell_at 1 (by decide) rfl (by decide))
    have e2 := cell_unique hd (cell_at 2 (by decide) rfl (by decide))
    rw [e1, (hread p (.head _)).1] at hcx
    rw [e2, (hread p (.head _)).2] at hdy
    rw [ih (fun q hq => hread q (.tail _ hq)) hrest]
    obtain ⟨x, y⟩ := q
    have hx : p.1 = x := Option.some.inj hcx
    have hy : p.2 = y := Option.some.inj hdy
    rw [← hx, ← hy]

theorem bus_back {num : Text → Option N} {pr : N → Text} {m : List ((Text × Int) × Text)} {p : NodeIn N × Text} (hread : PointsRead num pr p.1.points)
    (hp : Net.pyStrip p.2 = p.2) (hl : 2 ≤ p.1.points.length) {crows : List (List Text)}
    (hcr : (crows.filter fun c => keyOf c = keyOf (busFor pr p)) = connectorsFor pr m p) {n : NodeRec N}
    (h : BusOk num busCols (busFor pr p) connectorCols crows n) : n = nodeBack p.1 p.2 := by
  obtain ⟨h1, hr, a, b, mid, ⟨⟨c, hc, hcx⟩, d, hd, hdy⟩, ⟨⟨c', hc', hcx'⟩, d', hd', hdy'⟩, hmid, hpts⟩ := h
  rw [hcr] at hmid
  rw [busFor_key hp hl] at h1
  have hv : n.voltage = none := hr.2 (no_cell (by decide))
  obtain ⟨name, points, voltage⟩ := n
  dsimp only at h1 hv hpts
  subst h1 hv hpts
  obtain ⟨x, q, ps, hpp⟩ := points_of hl
  unfold busFor at hc hd hc' hd'
  unfold connectorsFor at hmid
  rw [hpp] at hc hd hc' hd' hmid
  have e1 := cell_unique hc (cell_at 1 (by decide) rfl (by decide))
  have e2 := cell_unique hd (cell_at 2 (by decide) rfl (by decide))
  have e3 := cell_unique hc' (cell_at 3 (by decide) rfl (by decide))
  have e4 := cell_unique hd' (cell_at 4 (by decide) rfl (by decide))
  rw [hpp] at hread
  rw [e1, (hread x (.head _)).1] at hcx
  rw [e2, (hread x (.head _)).2] at hdy
  have hlast := hread _ (.tail _ (List.getLast_mem (List.cons_ne_nil q ps)))
  rw [e3, hlast.1] at hcx'
  rw [e4, hlast.2] at hdy'
  rw [mid_back (fun y hy => hread y (.tail _ (List.mem_of_mem_dropLast hy))) hmid]
  unfold nodeBack
  rw [hpp, if_neg (List.cons_ne_nil _ _)]
  have ha : x = a := Prod.ext (Option.some.inj hcx) (Option.some.inj hdy)
  have hb : (q :: ps).getLast (List.cons_ne_nil _ _) = b := Prod.ext (Option.some.inj hcx') (Option.some.inj hdy')
  rw [← ha, ← hb, List.dropLast_concat_getLast]

theorem nodes_distinct {ns : List (NodeIn N)} (h : ((live ns).map (·.2)).Nodup) : ((plainNodes ns ++ busNodes ns).map (·.2)).Nodup := by
  have hperm : (plainNodes ns ++ busNodes ns).Perm (live ns) := by
    have h2 : busNodes ns = (live ns).filter fun p => !decide (p.1.points.length < 2) := by
      unfold busNodes
      congr 1
      funext p
      rw [← decide_not]
      exact decide_eq_decide.mpr Nat.not_lt.symm
    rw [h2]
    exact List.filter_append_perm _ _
  exact (hperm.map _).nodup_iff.mpr h

/-- the connectors of a bus are the rows with its name -/
theorem connectors_own {pr : N → Text} {m : List ((Text × Int) × Text)} {ps : List (NodeIn N × Text)} (hk : ∀ p ∈ ps, Net.pyStrip p.2 = p.2)
    (hd : (ps.map (·.2)).Nodup) {p : NodeIn N × Text} (hp : p ∈ ps) :
    ((ps.flatMap (connectorsFor pr m)).filter fun c => keyOf c = p.2) = connectorsFor pr m p := by
  have hown : ∀ q, Net.pyStrip q.2 = q.2 → ∀ c ∈ connectorsFor pr m q, keyOf c = q.2 := by
    intro q hq c hc
    obtain ⟨x, i, rfl⟩ := connectorsFor_mem hc
    exact hq
  induction ps with
  | nil => exact (List.not_mem_nil hp).elim
  | cons q ps ih =>
    rw [List.map_cons, List.nodup_cons] at hd
    rw [List.flatMap_cons, List.filter_append]
    rcases List.mem_cons.mp hp with rfl | hp
    · rw [List.filter_eq_self.mpr fun c hc => decide_eq_true (hown p (hk p (.head _)) c hc), List.filter_eq_nil_iff.mpr ?_, List.append_nil]
      intro c hc
      obtain ⟨x, hx, hcx⟩ := List.mem_flatMap.mp hc
      intro hkey
      refine hd.1 (List.mem_map.mpr ⟨x, hx, ?_⟩)
      rw [← hown x (hk x (.tail _ hx)) c hcx]
      exact of_decide_eq_true hkey
    · rw [List.filter_eq_nil_iff.mpr ?_, List.nil_append]
      · exact ih (fun x hx => hk x (.tail _ hx)) hd.2 hp
      intro c hc hkey
      refine hd.1 (List.mem_map.mpr ⟨p, hp, ?_⟩)
      rw [← hown q (hk q (.head _)) c hc]
      exact (of_decide_eq_true hkey).symm

theorem forall₂_map_of {A B C : Type} {f : A → B} {g : A → C} {R : B → C → Prop} {l : List A} {out : List C} (h : List.Forall₂ R (l.map f) out)
    (hR : ∀ a ∈ l, ∀ c, R (f a) c → c = g a) : out = l.map g := by
  induction l generalizing out with
  | nil => cases h; rfl
  | cons a l ih =>
    rw [List.map_cons, List.forall₂_cons_left_iff] at h
    obtain ⟨c, out', h1, h2, rfl⟩ := h
    rw [hR a (.head _) c h1, ih h2 fun x hx => hR x (.tail _ hx)]
    rfl

/-- Nodes written to a file and read back: those with at most one position come first, then those with more, both in the order of the model. A name and
all positions come back. Voltages are not written. -/
theorem C124_back_partial {num : Text → Option N} (hn : BlankFree num) {pr : N → Text} (hpr : ∀ x, CellText (pr x)) (h0 : num "0".toList = some 0)
    {m : List ((Text × Int) × Text)} (hm : ∀ k v, codeOf k m = some v → CellText v) {ns : List (NodeIn N)}
    (hread : ∀ n ∈ ns, ∀ q ∈ n.points, num (pr q.1) = some q.1 ∧ num (pr q.2) = some q.2)
    (hname : ∀ p ∈ live ns, NameText p.2) (hd : ((live ns).map (·.2)).Nodup) {content : List Text} (hw : WrittenNodes (nodeRows pr m ns) content)
    (hc : WrittenConnectors (nodeRows pr m ns) content) :
    parseNodes num content = .ok
      (((live ns).filter (fun p => decide (p.1.points.length < 2)) ++ (live ns).filter fun p => decide (2 ≤ p.1.points.length)).map fun p =>
        nodeBack p.1 p.2) := by
  obtain ⟨e1, e2, e3⟩ := nodeRows_of pr m ns
  have hlive : ∀ p ∈ live ns, p.1 ∈ ns := by
    intro p hp
    obtain ⟨n, hn, hf⟩ := List.mem_filterMap.mp hp
    cases hdr : n.dropped with
    | true => rw [hdr] at hf; exact nomatch hf
    | false =>
      rw [hdr, if_neg (by decide)] at hf
      obtain ⟨t, -, rfl⟩ := Option.map_eq_some_iff.mp hf
      exact hn
  have hbname : ∀ p ∈ busNodes ns, NameText p.2 := fun p hp => hname p (mem_bus hp).1
  have hpname : ∀ p ∈ plainNodes ns, NameText p.2 := fun p hp => hname p (mem_plain hp).1
  have hdist := nodes_distinct hd
  have hrowtext : ∀ r ∈ (plainNodes ns).map (rowFor pr), 3 ≤ r.length ∧ ∀ c ∈ r, CellText c := by
    intro r hr
    obtain ⟨p, hp, rfl⟩ := List.mem_map.mp hr
    exact rowFor_text hpr (hpname p hp).1
  have hbustext : ∀ r ∈ (busNodes ns).map (busFor pr), 3 ≤ r.length ∧ ∀ c ∈ r, CellText c := by
    intro r hr
    obtain ⟨p, hp, rfl⟩ := List.mem_map.mp hr
    exact busFor_text hpr (hbname p hp).1 (mem_bus hp).2
  have hcontext : ∀ r ∈ (busNodes ns).flatMap (connectorsFor pr m), 3 ≤ r.length ∧ ∀ c ∈ r, CellText c := by
    intro r hr
    obtain ⟨p, hp, hr⟩ := List.mem_flatMap.mp hr
    obtain ⟨q, i, rfl⟩ := connectorsFor_mem hr
    refine ⟨by simp, ?_⟩
    simp only [List.mem_cons, List.not_mem_nil, or_false]
    rintro c (rfl | rfl | rfl | rfl)
    exacts [(hbname p hp).1, hpr _, hpr _, connectorSection_text hm _ _]
  have hconn : Connectors content connectorCols ((busNodes ns).flatMap (connectorsFor pr m)) := by
    rw [← e3]
    rcases hc with ⟨h1, h2⟩ | ⟨h1, pre, rest, h2, h3, h4⟩
    · refine Or.inr (Or.inr ⟨h1, ?_⟩)
      rintro l hl ⟨h, hh, hi⟩
      rw [List.mem_singleton.mp hh] at hi
      exact h2 l hl hi
    · have hnot : ∀ l ∈ pre ++ rest, ¬Heads connectorQuery.headers l := by
        rintro l hl ⟨h, hh, hi⟩
        rw [List.mem_singleton.mp hh] at hi
        exact h3 l hl hi
      have hhead : Heads connectorQuery.headers ("[NODE CONNECTOR]".toList ++ ['\n']) := ⟨_, .head _, ⟨[], ['\n'], rfl⟩⟩
      have hlines : List.Forall₂ RowLine (((nodeRows pr m ns).connectors.map cellsLine).map fun r => r ++ ['\n']) (nodeRows pr m ns).connectors := by
        rw [List.map_map]
        exact rows_lines (by rw [e3]; exact hcontext)
      rcases h4 with rfl | ⟨post, rfl⟩
      · exact Or.inr (Or.inl ⟨h1, pre, _, _, _, by rw [h2, List.append_nil], fun l hl => hnot l (List.mem_append_left _ hl), hhead, connector_format, hlines⟩)
      · exact Or.inl ⟨pre, _, _, _, ['\n'], post, h2, fun l hl => hnot l (List.mem_append_left _ hl), hhead, connector_format, hlines, by decide,
          fun l hl => hnot l (List.mem_append_right _ (.tail _ hl))⟩
  obtain ⟨pre, post, h2, h3⟩ := hw
  have hnot : ∀ l ∈ pre ++ post, ¬Heads nodeQuery.headers l := by
    rintro l hl ⟨h, hh, hi⟩
    rw [List.mem_singleton.mp hh] at hi
    exact h3 l hl hi
  have hhead : Heads nodeQuery.headers "[NODE]\n".toList := ⟨_, .head _, ⟨[], ['\n'], by decide⟩⟩
  have hrows : ∀ r ∈ (plainNodes ns).map (rowFor pr), ∃ q, Point num nodeCols r "coordx".toList "coordy".toList q := by
    intro r hr
    obtain ⟨p, hp, rfl⟩ := List.mem_map.mp hr
    rcases hpp : p.1.points with _ | ⟨a, ps⟩
    · unfold rowFor
      rw [hpp]
      exact ⟨(0, 0), ⟨_, cell_at 1 (by decide) rfl (by decide), h0⟩, _, cell_at 2 (by decide) rfl (by decide), h0⟩
    · have ha := hread p.1 (hlive p (mem_plain hp).1) a (hpp ▸ .head _)
      unfold rowFor
      rw [hpp]
      exact ⟨a, ⟨_, cell_at 1 (by decide) rfl (by decide), ha.1⟩, _, cell_at 2 (by decide) rfl (by decide), ha.2⟩
  have hbrows : ∀ r ∈ (busNodes ns).map (busFor pr), (∃ q, Point num busCols r "coordx1".toList "coordy1".toList q) ∧
      ∃ q, Point num busCols r "coordx2".toList "coordy2".toList q := by
    intro r hr
    obtain ⟨p, hp, rfl⟩ := List.mem_map.mp hr
    obtain ⟨a, q, ps, hpp⟩ := points_of (mem_bus hp).2
    have hall := hread p.1 (hlive p (mem_bus hp).1)
    rw [hpp] at hall
    have ha := hall a (.head _)
    have hb := hall _ (.tail _ (List.getLast_mem (List.cons_ne_nil q ps)))
    unfold busFor
    rw [hpp]
    exact ⟨⟨a, ⟨_, cell_at 1 (by decide) rfl (by decide), ha.1⟩, _, cell_at 2 (by decide) rfl (by decide), ha.2⟩,
      _, ⟨_, cell_at 3 (by decide) rfl (by decide), hb.1⟩, _, cell_at 4 (by decide) rfl (by decide), hb.2⟩
  have hcrows : ∀ r ∈ (busNodes ns).flatMap (connectorsFor pr m), ∃ q, Point num connectorCols r "coordx".toList "coordy".toList q := by
    intro r hr
    obtain ⟨p, hp, hr⟩ := List.mem_flatMap.mp hr
    obtain ⟨a, q, ps, hpp⟩ := points_of (mem_bus hp).2
    have hall := hread p.1 (hlive p (mem_bus hp).1)
    unfold connectorsFor at hr
    rw [hpp] at hr hall
    obtain ⟨x, hx, i, rfl⟩ := connectorRows_mem hr
    have ha := hall x (.tail _ (List.mem_of_mem_dropLast hx))
    exact ⟨x, ⟨_, cell_at 1 (by decide) rfl (by decide), ha.1⟩, _, cell_at 2 (by decide) rfl (by decide), ha.2⟩
  have hkey1 : ((plainNodes ns).map (rowFor pr)).map keyOf = (plainNodes ns).map (·.2) := by
    rw [List.map_map]
    exact List.map_congr_left fun p hp => rowFor_key p (hpname p hp).2.1
  have hkey2 : ((busNodes ns).map (busFor pr)).map keyOf = (busNodes ns).map (·.2) := by
    rw [List.map_map]
    exact List.map_congr_left fun p hp => busFor_key (hbname p hp).2.1 (mem_bus hp).2
  have hstar1 : ∀ r ∈ (plainNodes ns).map (rowFor pr), '*' ∉ keyOf r := by
    intro r hr
    obtain ⟨p, hp, rfl⟩ := List.mem_map.mp hr
    rw [rowFor_key p (hpname p hp).2.1]
    exact (hpname p hp).2.2
  have hstar2 : ∀ r ∈ (busNodes ns).map (busFor pr), '*' ∉ keyOf r := by
    intro r hr
    obtain ⟨p, hp, rfl⟩ := List.mem_map.mp hr
    rw [busFor_key (hbname p hp).2.1 (mem_bus hp).2]
    exact (hbname p hp).2.2
  have hstar3 : ∀ r ∈ (busNodes ns).flatMap (connectorsFor pr m), '*' ∉ keyOf r := by
    intro r hr
    obtain ⟨p, hp, hr⟩ := List.mem_flatMap.mp hr
    obtain ⟨q, i, rfl⟩ := connectorsFor_mem hr
    show '*' ∉ Net.pyStrip p.2
    rw [(hbname p hp).2.1]
    exact (hbname p hp).2.2
  have hplain : ∀ p ∈ plainNodes ns, ∀ n, NodeOk num nodeCols (rowFor pr p) n → n = nodeBack p.1 p.2 := fun p hp n hok =>
    plain_back h0 (hread p.1 (hlive p (mem_plain hp).1)) (hpname p hp).2.1 (mem_plain hp).2 hok
  show _ = Except.ok ((plainNodes ns ++ busNodes ns).map fun p => nodeBack p.1 p.2)
  unfold nodeTableLines at h2
  rw [e1, e2] at h2
  by_cases hb : busNodes ns = []
  · rw [hb, List.map_nil, if_pos rfl, List.append_nil] at h2
    rw [hb, List.append_nil]
    obtain ⟨out, o1, o2⟩ := C76_plain_nodes hn (content := content) (cols := nodeCols) (rows := (plainNodes ns).map (rowFor pr))
      ⟨pre, _, _, _, ['\n'], post, h2, fun l hl => hnot l (List.mem_append_left _ hl), hhead, node_format, rows_lines hrowtext, by decide,
        fun l hl => hnot l (List.mem_append_right _ hl)⟩ hconn (by
          rw [hkey1]
          rw [List.map_append] at hdist
          exact (List.nodup_append.mp hdist).1) (fun r hr => (List.mem_append.mp hr).elim (hstar1 r) (hstar3 r)) hrows
    rw [o1, forall₂_map_of o2 hplain]
  · rw [if_neg (fun hh => hb (List.map_eq_nil_iff.mp hh))] at h2
    obtain ⟨out, bout, o1, o2, o3⟩ := C76_nodes hn (content := content) (cols := nodeCols) (rows := (plainNodes ns).map (rowFor pr)) (bcols := busCols)
      (brows := (busNodes ns).map (busFor pr))
      ⟨pre, _, _, _, _, _, ['\n'], post, by rw [h2]; simp only [List.cons_append, List.append_assoc], fun l hl => hnot l (List.mem_append_left _ hl), hhead,
        node_format, rows_lines hrowtext, bus_format, rows_lines hbustext, by decide, fun l hl => hnot l (List.mem_append_right _ hl)⟩ hconn (by
          rw [List.map_append, hkey1, hkey2, ← List.map_append]
          exact hdist) (fun r hr => (List.mem_append.mp hr).elim (hstar2 r) (hstar3 r)) hrows hbrows hcrows
    rw [o1, forall₂_map_of o2 hplain, forall₂_map_of o3 ?_, List.map_append]
    · intro p hp n hok
      refine bus_back (m := m) (hread p.1 (hlive p (mem_bus hp).1)) (hbname p hp).2.1 (mem_bus hp).2 ?_ hok
      rw [busFor_key (hbname p hp).2.1 (mem_bus hp).2]
      rw [List.map_append] at hdist
      exact connectors_own (fun q hq => (hbname q hq).2.1) (List.nodup_append.mp hdist).2.1 hp

end

/-! ### connectors -/

theorem endPut_code (hash : Text → Text) (e : EndsIn) (n : Option Text) (i : Option Int) (m : List ((Text × Int) × Text)) (k : Text × Int) :
    codeOf k (putEnd hash e n i m) = if n = some k.1 ∧ i = some k.2 then some (endsSection hash e) else codeOf k m := by
  obtain ⟨t, j⟩ := k
  cases n with
  | none => exact (if_neg fun h => (nomatch h.1)).symm
  | some n =>
    cases i with
    | none => exact (if_neg fun h => (nomatch h.2)).symm
    | some i =>
      show codeOf (t, j) (putCode (n, i) _ m) = _
      rw [codeOf_put]
      by_cases h : (t, j) = (n, i)
      · rw [if_pos h, if_pos ⟨congrArg some (Prod.mk.inj h).1.symm, congrArg some (Prod.mk.inj h).2.symm⟩]
      · rw [if_neg h, if_neg fun hh => h (Prod.ext (Option.some.inj hh.1).symm (Option.some.inj hh.2).symm)]

theorem ends_code (hash : Text → Text) (e : EndsIn) (m : List ((Text × Int) × Text)) (name : Text) (i : Int) [Decidable (ConnectedAt e name i)] :
    codeOf (name, i) (putEnd hash e e.target e.targetIndex (putEnd hash e e.source e.sourceIndex m)) =
      if ConnectedAt e name i then some (endsSection hash e) else codeOf (name, i) m := by
  rw [endPut_code, endPut_code]
  dsimp only
  by_cases h1 : e.target = some name ∧ e.targetIndex = some i
  · rw [if_pos h1, if_pos (show ConnectedAt e name i from Or.inr h1)]
  · by_cases h2 : e.source = some name ∧ e.sourceIndex = some i
    · rw [if_neg h1, if_pos h2, if_pos (show ConnectedAt e name i from Or.inl h2)]
    · rw [if_neg h1, if_neg h2, if_neg fun h => h.elim h2 h1]

open Classical in
theorem map_last (hash : Text → Text) (es : List EndsIn) (name : Text) (i : Int) :
    (∀ pre e post, es = pre ++ e :: post → ConnectedAt e name i → (∀ x ∈ post, ¬ConnectedAt x name i) →
      codeOf (name, i) (connectorMap hash es) = some (endsSection hash e)) ∧
    ((∀ e ∈ es, ¬ConnectedAt e name i) → codeOf (name, i) (connectorMap hash es) = none) := by
  induction es using List.reverseRecOn with
  | nil => exact ⟨fun pre e post h => absurd h (by simp), fun _ => rfl⟩
  | append_singleton es x ih =>
    have hrun : codeOf (name, i) (connectorMap hash (es ++ [x])) =
        if ConnectedAt x name i then some (endsSection hash x) else codeOf (name, i) (connectorMap hash es) := by
      rw [← ends_code]
      unfold connectorMap
      rw [List.foldl_append]
      rfl
    rw [hrun]
    constructor
    · intro pre e post h h1 h2
      rcases post.eq_nil_or_concat with rfl | ⟨post', y, rfl⟩
      · have := List.append_inj_right' h rfl
        rw [List.cons.inj this |>.1, if_pos h1]
      · have h' : es ++ [x] = (pre ++ e :: post') ++ [y] := by rw [h]; simp
        have hx : x = y := (List.cons.inj (List.append_inj_right' h' rfl)).1
        have hes := List.append_inj_left' h' rfl
        rw [if_neg (by rw [hx]; exact h2 y (by simp))]
        exact ih.1 pre e post' hes h1 fun z hz => h2 z (by simp [hz])
    · intro h
      rw [if_neg (h x (by simp))]
      exact ih.2 fun e he => h e (by simp [he])

theorem connectorRows_at {N : Type} (pr : N → Text) (m : List ((Text × Int) × Text)) (name : Text) : ∀ (ps : List (N × N)) (k j : Nat),
    (connectorRows pr m name k ps)[j]? = ps[j]?.map fun q => [name, pr q.1, pr q.2, connectorSection m name (k + j)]
  | [], k, j => by simp [connectorRows]
  | p :: ps, k, 0 => rfl
  | p :: ps, k, j + 1 => by
    rw [connectorRows, List.getElem?_cons_succ, List.getElem?_cons_succ, connectorRows_at pr m name ps (k + 1) j]
    rw [show k + 1 + j = k + (j + 1) by omega]

/-- Each position of a node between its first and its last one is in the table of connectors. Its section is that of the last element connected
to the node at this index, or empty if there is none. -/
theorem C124_connectors {N : Type} (pr : N → Text) (hash : Text → Text) (es : List EndsIn) {ns : List (NodeIn N)} {n : NodeIn N} {name : Text}
    (hn : (n, name) ∈ live ns) {a b : N × N} {mid : List (N × N)} (hp : n.points = a :: (mid ++ [b])) {j : Nat} {q : N × N} (hq : mid[j]? = some q) :
    ∃ sec, [name, pr q.1, pr q.2, sec] ∈ (nodeRows pr (connectorMap hash es) ns).connectors ∧
      (∀ pre e post, es = pre ++ e :: post → ConnectedAt e name j → (∀ x ∈ post, ¬ConnectedAt x name j) →
        sec = shorten hash (nameText e.source ++ '_' :: nameText e.target)) ∧
      ((∀ e ∈ es, ¬ConnectedAt e name j) → sec = []) := by
  obtain ⟨-, -, e3⟩ := nodeRows_of pr (connectorMap hash es) ns
  obtain ⟨h1, h2⟩ := map_last hash es name j
  refine ⟨connectorSection (connectorMap hash es) name j, ?_, ?_, ?_⟩
  · rw [e3, List.mem_flatMap]
    refine ⟨(n, name), List.mem_filter.mpr ⟨hn, decide_eq_true ?_⟩, ?_⟩
    · rw [hp]
      simp
    · unfold connectorsFor
      dsimp only
      rw [hp]
      obtain ⟨x, xs, hx⟩ : ∃ x xs, mid ++ [b] = x :: xs := by
        cases mid with
        | nil => exact ⟨b, [], rfl⟩
        | cons y ys => exact ⟨y, ys ++ [b], rfl⟩
      rw [hx]
      dsimp only
      rw [← hx, List.dropLast_concat]
      refine List.mem_of_getElem? (i := j) ?_
      rw [connectorRows_at, hq, Nat.zero_add]
      rfl
  · intro pre e post g1 g2 g3
    unfold connectorSection
    rw [h1 pre e post g1 g2 g3]
    rfl
  · intro g
    unfold connectorSection
    rw [h2 g]

/-- There is one connector for each position between the first and the last one. -/
theorem C124_size {N : Type} (pr : N → Text) (m : List ((Text × Int) × Text)) (ns : List (NodeIn N)) :
    (nodeRows pr m ns).connectors.length = ((live ns).map fun p => p.1.points.length - 2).sum ∧
      (nodeRows pr m ns).rows.length + (nodeRows pr m ns).buses.length = (live ns).length := by
  have hlen : ∀ (name : Text) (ps : List (N × N)) (j : Nat), (connectorRows pr m name j ps).length = ps.length := by
    intro name ps
    induction ps with
    | nil => exact fun _ => rfl
    | cons p ps ih => exact fun j => congrArg (· + 1) (ih (j + 1))
  obtain ⟨e1, e2, e3⟩ := nodeRows_of pr m ns
  rw [e1, e2, e3]
  unfold plainNodes busNodes
  generalize live ns = l
  induction l with
  | nil => exact ⟨rfl, rfl⟩
  | cons p l ih =>
    rw [List.map_cons, List.sum_cons, List.length_cons]
    by_cases h : p.1.points.length < 2
    · rw [List.filter_cons_of_pos (p := fun p : NodeIn N × Text => decide (p.1.points.length < 2)) (decide_eq_true h),
        List.filter_cons_of_neg (p := fun p : NodeIn N × Text => decide (2 ≤ p.1.points.length)) (by simp; omega), List.map_cons, List.length_cons]
      refine ⟨by rw [ih.1]; omega, by omega⟩
    · rw [List.filter_cons_of_neg (p := fun p : NodeIn N × Text => decide (p.1.points.length < 2)) (by simp; omega),
        List.filter_cons_of_pos (p := fun p : NodeIn N × Text => decide (2 ≤ p.1.points.length)) (decide_eq_true (by omega)), List.map_cons,
        List.length_cons, List.flatMap_cons, List.length_append, ih.1]
      refine ⟨?_, by omega⟩
      congr 1
      obtain ⟨a, q, ps, hp⟩ := points_of (Nat.not_lt.mp h)
      unfold connectorsFor
      rw [hp]
      dsimp only
      rw [hlen, List.length_dropLast]
      rfl

/-- A node without positions comes back with one, at the origin. -/
theorem C124_empty_violated {N : Type} [Zero N] (n : NodeIn N) (name : Text) (h : n.points = []) : (nodeBack n name).points = [(0, 0)] := by
  unfold nodeBack
  rw [if_pos h]

/-- The order of the nodes is lost if there is a node with one position after one with more. -/
theorem C124_order_violated {N : Type} (pr : N → Text) (m : List ((Text × Int) × Text)) (a b : Text) (p q r : N × N) :
    nodeRows pr m [⟨false, some a, [p, q]⟩, ⟨false, some b, [r]⟩] =
      { rows := [[b, pr r.1, pr r.2]], buses := [[a, pr p.1, pr p.2, pr q.1, pr q.2, "2".toList]] } := rfl

/-- Only the last element connected at an index is kept: the one before it has no connector, although it is at the same index of the node. -/
theorem C124_shared_violated (hash : Text → Text) (name : Text) (i : Int) (e e' : EndsIn) (h' : ConnectedAt e' name i) (hs : endsSection hash e ≠ endsSection hash e') :
    codeOf (name, i) (connectorMap hash [e, e']) ≠ some (endsSection hash e) := by
  rw [(map_last hash [e, e'] name i).1 [e] e' [] rfl h' fun x hx => (List.not_mem_nil hx).elim]
  exact fun h => hs (Option.some.inj h).symm

/-! ### examples -/

/-- a digit -/
def digitText (d : Nat) : Text := [Char.ofNat (48 + d % 10)]

theorem digitText_cell (d : Nat) : CellText (digitText d) := by
  rw [cellText_iff]
  exact (show ∀ k < 10, [Char.ofNat (48 + k)].all (fun x => x ≠ ',' && x ≠ '=' && x ≠ '\n' && x ≠ '\r') = true by decide) (d % 10) (Nat.mod_lt d (by decide))

def someNodes : List (NodeIn Nat) :=
  [⟨false, some "b1".toList, [(1, 2), (3, 4), (5, 6), (7, 8)]⟩, ⟨true, some "gone".toList, [(1, 1)]⟩, ⟨false, none, []⟩, ⟨false, some "n1".toList, [(9, 1)]⟩,
    ⟨false, some "n2".toList, []⟩]

def someEnds : List EndsIn :=
  [⟨some "b1".toList, some "n1".toList, some 0, none⟩, ⟨some "n2".toList, some "b1".toList, none, some 0⟩, ⟨none, some "b1".toList, none, some 7⟩]

example : connectorMap id someEnds = [(("b1".toList, 0), "n2_b1".toList), (("b1".toList, 7), "None_b1".toList)] := by decide +kernel

example : nodeRows digitText (connectorMap id someEnds) someNodes =
    { rows := [["n1".toList, "9".toList, "1".toList], ["n2".toList, "0".toList, "0".toList]]
      buses := [["b1".toList, "1".toList, "2".toList, "7".toList, "8".toList, "2".toList]]
      connectors := [["b1".toList, "3".toList, "4".toList, "n2_b1".toList], ["b1".toList, "5".toList, "6".toList, []]] } := by decide +kernel

def someNodesFile : List Text :=
  ["[SI]\n".toList] ++ "[NODE]\n".toList :: (nodeTableLines (nodeRows digitText (connectorMap id someEnds) someNodes) ++ ['\n'] ::
    ("[NODE CONNECTOR]".toList ++ ['\n']) :: (connectorFormat ++ ['\n']) ::
      (((nodeRows digitText (connectorMap id someEnds) someNodes).connectors.map cellsLine).map fun r => r ++ ['\n']))

theorem not_in {x : Text} {ls : List Text} (h : ls.all (fun l => !inText x l) = true) : ∀ l ∈ ls, ¬x <:+: l := by
  intro l hl hx
  have := List.all_eq_true.mp h l hl
  rw [(inText_iff x l).mpr hx] at this
  exact nomatch this

example : parseNodes digitOf someNodesFile = .ok
    [⟨"n1".toList, [(9, 1)], none⟩, ⟨"n2".toList, [(0, 0)], none⟩, ⟨"b1".toList, [(1, 2), (3, 4), (5, 6), (7, 8)], none⟩] := by
  refine (C124_back_partial digitOf_blank digitText_cell (by decide) (m := connectorMap id someEnds) ?_ (ns := someNodes) (by decide +kernel) ?_ (by decide +kernel)
    ⟨_, _, rfl, not_in (by decide +kernel)⟩ (Or.inr ⟨by decide +kernel, ["[SI]\n".toList] ++ "[NODE]\n".toList ::
      (nodeTableLines (nodeRows digitText (connectorMap id someEnds) someNodes) ++ [['\n']]), [], ?_, not_in (by decide +kernel), Or.inl rfl⟩)).trans ?_
  · intro k v h
    have : ∀ e ∈ connectorMap id someEnds, e.2.all (fun x => x ≠ ',' && x ≠ '=' && x ≠ '\n' && x ≠ '\r') = true := by decide +kernel
    exact (cellText_iff v).mpr (this (k, v) ((codeOf_iff (by decide +kernel) k v).mp h))
  · intro p hp
    have h1 : ∀ p ∈ live someNodes, p.2.all (fun x => x ≠ ',' && x ≠ '=' && x ≠ '\n' && x ≠ '\r') = true ∧ Net.pyStrip p.2 = p.2 ∧ '*' ∉ p.2 := by decide +kernel
    exact ⟨(cellText_iff _).mpr (h1 p hp).1, (h1 p hp).2⟩
  · decide +kernel
  · decide +kernel

end Ditto.Cyme
