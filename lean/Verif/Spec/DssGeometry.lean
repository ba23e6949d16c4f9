import Verif.Model.DssGeometry
import Verif.Spec.DssCodes

/-! What is assumed of OpenDSS for geometries. -/
namespace Ditto.Spec
open Ditto Ditto.Dss

/-- OpenDSS reports the parameters of a wire or cable that it has been given (units up to lower case). Nothing is assumed about parameters
that have not been given. -/
structure ReportsWire (ps : Params) (w : WireInfo) : Prop where
  gmr : ∀ v, ps.lookup "GMRac" = some (.num v) → w.gmr = some v
  gmrunits : ∀ u, ps.lookup "GMRunits" = some (.str u) → pyLower w.gmrunits = u
  diam : ∀ v, ps.lookup "Diam" = some (.num v) → w.diam = some v
  radunits : ∀ u, ps.lookup "Radunits" = some (.str u) → pyLower w.radunits = u
  normamps : ∀ v, ps.lookup "normamps" = some (.num v) → w.normamps = some v
  emergamps : ∀ v, ps.lookup "emergamps" = some (.num v) → w.emergamps = some v
  rac : ∀ v, ps.lookup "Rac" = some (.num v) → w.rac = some v
  runits : ∀ u, ps.lookup "Runits" = some (.str u) → pyLower w.runits = u
  gmrStrand : ∀ v, ps.lookup "GmrStrand" = some (.num v) → w.gmrStrand = some v
  rStrand : ∀ v, ps.lookup "Rstrand" = some (.num v) → w.rStrand = some v
  diaStrand : ∀ v, ps.lookup "DiaStrand" = some (.num v) → w.diaStrand = some v
  diaCable : ∀ v, ps.lookup "DiaCable" = some (.num v) → w.diaCable = some v
  insLayer : ∀ v, ps.lookup "InsLayer" = some (.num v) → w.insLayer = some v
  k : ∀ v, ps.lookup "k" = some (.num v) → (w.k : ℚ) = v

/-- OpenDSS reports a geometry that it has been given, with the wires and cables of the files: names in lower case, positions in meters -/
structure ReportsGeometry (ws : WireState) (g : Geometry) (i : GeoInfo) (wires cables : List (String × WireInfo)) : Prop where
  nconds : i.nconds = g.conds.length
  units : ∀ p < g.conds.length, ∃ u, unitAt p i.units = .ok u ∧ pyLower u = "m"
  x : ∀ (p : Nat) c, g.conds[p]? = some c → i.x.at? p = c.x
  h : ∀ (p : Nat) c, g.conds[p]? = some c → i.h.at? p = c.h
  code : ∀ (p : Nat) c, g.conds[p]? = some c → codeAt p i.wires = .ok (some (pyLower c.wire))
  wires : ∀ c ∈ g.conds, c.cable = false → ∀ ps, ws.wires.lookup c.wire = some ps →
    cables.lookup (pyLower c.wire) = none ∧ ∃ w, wires.lookup (pyLower c.wire) = some w ∧ ReportsWire ps w
  cables : ∀ c ∈ g.conds, c.cable = true → ∀ ps, ws.cables.lookup c.wire = some ps →
    ∃ w, cables.lookup (pyLower c.wire) = some w ∧ ReportsWire ps w

end Ditto.Spec
