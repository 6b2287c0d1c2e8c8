import Verif.Spec.Coasting
/-! What the caller of the C interface gives and gets, as real numbers, when the program computes with rounding. -/
namespace Verif.Spec
open Verif

/-- The numbers of a vector. -/
def valsV {R : Rounding} {n : Nat} (x : Fin n → RR R) : Fin n → ℝ := fun i => (x i).v

/-- The numbers of a navigation result. -/
def valsOut {R : Rounding} (n : NavOutput (RR R)) : NavOutput ℝ :=
  { week := n.week, gpst := n.gpst.v, lat := n.lat.v, lon := n.lon.v, height := n.height.v
    posStd := valsV n.posStd, vn := valsV n.vn, vnStd := valsV n.vnStd, atti := valsV n.atti, attiStd := valsV n.attiStd
    info := n.info, gb := valsV n.gb, ab := valsV n.ab, gs := valsV n.gs, as := valsV n.as, kd := n.kd.v }

/-- The numbers of the sensor parameters. -/
def valsPara {R : Rounding} (p : ImuPara (RR R)) : ImuPara ℝ :=
  { arw := p.arw.v, vrw := p.vrw.v, abIni := valsV p.abIni, gbIni := valsV p.gbIni, asIni := valsV p.asIni, gsIni := valsV p.gsIni
    abStd := valsV p.abStd, gbStd := valsV p.gbStd, gsStd := valsV p.gsStd, asStd := valsV p.asStd, atCorr := p.atCorr.v, gtCorr := p.gtCorr.v }
end Verif.Spec
