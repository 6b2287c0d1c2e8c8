import Verif.Props.RoundedNav
/-! One sample of the mechanization with rounding, against the exact one. -/
namespace Verif.Props
open Verif Verif.Spec Verif.Convert Matrix
variable {ι : Type} [Sit ι]

/-- The part of the state the mechanization reads again. -/
structure ApIns (S : ι → Ins ℝ) (s : (i : ι) → Ins (RR (Sit.R i))) : Prop where
  pos : ApV (fun i => (S i).nav.pos) (fun i => (s i).nav.pos)
  vn : ApV (fun i => (S i).nav.vn) (fun i => (s i).nav.vn)
  dvn : ApV (fun i => (S i).nav.dvn) (fun i => (s i).nav.dvn)
  Cbn : ApM (fun i => (S i).nav.Cbn) (fun i => (s i).nav.Cbn)
  Qbn : ApQ (fun i => (S i).nav.Qbn) (fun i => (s i).nav.Qbn)
  Qne : ApQ (fun i => (S i).nav.Qne) (fun i => (s i).nav.Qne)
  dt : Ap (fun i => (S i).dt) (fun i => (s i).dt)
  gyroPre : ApV (fun i => (S i).gyroPre) (fun i => (s i).gyroPre)
  accePre : ApV (fun i => (S i).accePre) (fun i => (s i).accePre)

/-- The quantities at the middle of the interval. -/
structure ApMid (S : ι → Ins ℝ) (s : (i : ι) → Ins (RR (Sit.R i))) : Prop where
  vnMid : ApV (fun i => (S i).vnMid) (fun i => (s i).vnMid)
  posMid : ApV (fun i => (S i).posMid) (fun i => (s i).posMid)
  en : ApV (fun i => (S i).omegaEnN) (fun i => (s i).omegaEnN)
  ie : ApV (fun i => (S i).omegaIeN) (fun i => (s i).omegaIeN)

def sumsq (v : V3 ℝ) : ℝ := v 0 * v 0 + v 1 * v 1 + v 2 * v 2

/-- What keeps the extrapolation away from singular places. -/
structure GoodEx (m : ℝ) (s : Ins ℝ) : Prop where
  lat : m ≤ |Real.cos (s.nav.pos 0)|
  height : -1000001 ≤ s.nav.pos 2
  zeta : sumsq (vd (vs (Earth.omegaIeN (s.nav.pos 0) + Earth.omegaEnN s.nav.vn s.nav.pos) s.dt) (Fl.lit 2)) ≤ 1
  eps : sumsq (vd (vs Earth.omegaIeE s.dt) (Fl.lit 2)) ≤ 1
  nsq : m ≤ (((rvToQuat (vd (vs Earth.omegaIeE s.dt) (Fl.lit 2))).conj.mul s.nav.Qne).mul
    (rvToQuat (vd (vs (Earth.omegaIeN (s.nav.pos 0) + Earth.omegaEnN s.nav.vn s.nav.pos) s.dt) (Fl.lit 2)))).nsq
  front : m ≤ (((rvToQuat (vd (vs Earth.omegaIeE s.dt) (Fl.lit 2))).conj.mul s.nav.Qne).mul
    (rvToQuat (vd (vs (Earth.omegaIeN (s.nav.pos 0) + Earth.omegaEnN s.nav.vn s.nav.pos) s.dt) (Fl.lit 2)))).normalized.w
  latMid : m ≤ |Real.cos (s.extrapolate.2.posMid 0)|
  heightMid : -1000001 ≤ s.extrapolate.2.posMid 2

theorem ap_extrapolate {S : ι → Ins ℝ} {s : (i : ι) → Ins (RR (Sit.R i))} (m : ℝ) (hm : 0 < m) (hg : ∀ i, GoodEx m (S i)) (h : ApIns S s) :
    Ap (fun i => (S i).extrapolate.1) (fun i => (s i).extrapolate.1) ∧ ApMid (fun i => (S i).extrapolate.2) (fun i => (s i).extrapolate.2) := by
  have en := Ap.omegaEnN m hm (fun i => (hg i).lat) (fun i => (hg i).height) h.vn h.pos
  have ie := Ap.omegaIeN (h.pos 0)
  have vm : ApV (fun i => (S i).extrapolate.2.vnMid) (fun i => (s i).extrapolate.2.vnMid) := h.vn.add (ApV.sv (Ap.lit (1 / 2)) h.dvn)
  have hM := (h.pos 2).sub (((h.vn 2).mul h.dt).divLit 2 (by norm_num))
  have zeta := ((ie.add en).vs h.dt).vd 2 (by norm_num)
  have eps := (Ap.omegaIeE.vs h.dt).vd 2 (by norm_num)
  have qnn := ApQ.rv (fun i => (hg i).zeta) zeta
  have qee := (ApQ.rv (fun i => (hg i).eps) eps).conj
  have qne := ((qee.mul h.Qne).mul qnn).normalized m hm (fun i => (hg i).nsq)
  have ll := Ap.lla m hm (fun i => (hg i).front) qne
  have pm : ApV (fun i => (S i).extrapolate.2.posMid) (fun i => (s i).extrapolate.2.posMid) := ApV.v3 ll.1 ll.2 hM
  exact ⟨Ap.gravity (pm 0) (pm 2), vm, pm, Ap.omegaEnN m hm (fun i => (hg i).latMid) (fun i => (hg i).heightMid) vm pm, Ap.omegaIeN (pm 0)⟩

theorem ap_velocity {S : ι → Ins ℝ} {s : (i : ι) → Ins (RR (Sit.R i))} {g : ι → ℝ} {G : (i : ι) → RR (Sit.R i)} {a w : ι → V3 ℝ} {A W : (i : ι) → V3 (RR (Sit.R i))} (m : ℝ) (hm : 0 < m)
    (hl : ∀ i, m ≤ |Real.cos ((S i).posMid 0)|) (hh : ∀ i, -1000001 ≤ (S i).posMid 2)
    (hg : Ap g G) (h : ApIns S s) (hM : ApMid S s) (ha : ApV a A) (hw : ApV w W) :
    ApIns (fun i => (S i).velocityUpdate (g i) (a i) (w i)) (fun i => (s i).velocityUpdate (G i) (A i) (W i)) ∧
    ApMid (fun i => (S i).velocityUpdate (g i) (a i) (w i)) (fun i => (s i).velocityUpdate (G i) (A i) (W i)) := by
  have gn := ApV.v3 Ap.zero Ap.zero hg
  have cor := (gn.sub (((ApV.sv (Ap.lit 2) hM.ie).add hM.en).cross h.vn)).vs h.dt
  have zeta := (hM.en.add hM.ie).vs h.dt
  have v1 := (ha.add (ApV.sv (Ap.lit (1 / 2)) (hw.cross ha))).add (((h.gyroPre.cross ha).add (h.accePre.cross hw)).vd 12 (by norm_num))
  have vf := ApV.mvec (ApM.mmul ((ApM.eye 3).sub (ApM.sm (Ap.lit (1 / 2)) (ApM.skew zeta))) h.Cbn) v1
  have dvn := vf.add cor
  have vm := h.vn.add (dvn.vd 2 (by norm_num))
  exact ⟨⟨h.pos, h.vn.add dvn, dvn, h.Cbn, h.Qbn, h.Qne, h.dt, h.gyroPre, h.accePre⟩, vm, hM.posMid, Ap.omegaEnN m hm hl hh vm hM.posMid, hM.ie⟩

section
variable {α : Type} [Add α] [Sub α] [Mul α] [Neg α] [Div α] [Zero α] [One α] [Fl α]
/-- The position quaternion before it is normalised. -/
def preQne (s : Ins α) : Quat α := ((rvToQuat (vs Earth.omegaIeE s.dt)).conj.mul s.nav.Qne).mul (rvToQuat (vs (s.omegaIeN + s.omegaEnN) s.dt))
/-- The attitude quaternion before it is normalised. -/
def preQbn (s : Ins α) (w : V3 α) : Quat α := ((rvToQuat (vs (s.omegaIeN + s.omegaEnN) s.dt)).conj.mul s.nav.Qbn).mul (rvToQuat (gyroToRv w s.gyroPre))
/-- The state after the velocity update. -/
def afterVel (s : Ins α) (m : Imu α) : Ins α :=
  s.extrapolate.2.velocityUpdate s.extrapolate.1 (Ins.compensate s.dt m.acce s.nav.ab s.nav.as) (Ins.compensate s.dt m.gyro s.nav.gb s.nav.gs)
end

/-- What keeps the position update away from singular places. -/
structure GoodPos (m : ℝ) (s : Ins ℝ) : Prop where
  eps : sumsq (vs Earth.omegaIeE s.dt) ≤ 1
  zeta : sumsq (vs (s.omegaIeN + s.omegaEnN) s.dt) ≤ 1
  nsq : m ≤ (preQne s).nsq
  front : m ≤ s.positionUpdate.nav.Qne.w
  latMid : m ≤ |Real.cos (s.positionUpdate.posMid 0)|
  heightMid : -1000001 ≤ s.positionUpdate.posMid 2

theorem ap_position {S : ι → Ins ℝ} {s : (i : ι) → Ins (RR (Sit.R i))} (m : ℝ) (hm : 0 < m) (hg : ∀ i, GoodPos m (S i)) (h : ApIns S s) (hM : ApMid S s) :
    ApIns (fun i => (S i).positionUpdate) (fun i => (s i).positionUpdate) ∧ ApMid (fun i => (S i).positionUpdate) (fun i => (s i).positionUpdate) ∧ ApQ (fun i => preQne (S i)) (fun i => preQne (s i)) := by
  have qee := (ApQ.rv (fun i => (hg i).eps) (Ap.omegaIeE.vs h.dt)).conj
  have qnn := ApQ.rv (fun i => (hg i).zeta) ((hM.ie.add hM.en).vs h.dt)
  have qne : ApQ (fun i => (S i).positionUpdate.nav.Qne) (fun i => (s i).positionUpdate.nav.Qne) := ((qee.mul h.Qne).mul qnn).normalized m hm (fun i => (hg i).nsq)
  have ll := Ap.lla m hm (fun i => (hg i).front) qne
  have hz := (h.pos 2).sub ((hM.vnMid 2).mul h.dt)
  have pos : ApV (fun i => (S i).positionUpdate.nav.pos) (fun i => (s i).positionUpdate.nav.pos) := ApV.v3 ll.1 ll.2 hz
  have pm : ApV (fun i => (S i).positionUpdate.posMid) (fun i => (s i).positionUpdate.posMid) :=
    ApV.v3 ((pos 0).add ((Ap.lit (1 / 2)).mul ((pos 0).sub (h.pos 0)))) ((pos 1).add ((Ap.lit (1 / 2)).mul ((pos 1).sub (h.pos 1)))) ((Ap.lit (1 / 2)).mul ((pos 2).add (h.pos 2)))
  exact ⟨⟨pos, h.vn, h.dvn, h.Cbn, h.Qbn, qne, h.dt, h.gyroPre, h.accePre⟩, ⟨hM.vnMid, pm, Ap.omegaEnN m hm (fun i => (hg i).latMid) (fun i => (hg i).heightMid) hM.vnMid pm, Ap.omegaIeN (pm 0)⟩, (qee.mul h.Qne).mul qnn⟩

/-- What keeps the attitude update regular. -/
structure GoodAtt (m : ℝ) (s : Ins ℝ) (w : V3 ℝ) : Prop where
  body : sumsq (gyroToRv w s.gyroPre) ≤ 1
  zeta : sumsq (vs (s.omegaIeN + s.omegaEnN) s.dt) ≤ 1
  nsq : m ≤ (preQbn s w).nsq

theorem ap_attitude {S : ι → Ins ℝ} {s : (i : ι) → Ins (RR (Sit.R i))} {w : ι → V3 ℝ} {W : (i : ι) → V3 (RR (Sit.R i))} (m : ℝ) (hm : 0 < m) (hg : ∀ i, GoodAtt m (S i) (w i)) (h : ApIns S s)
    (hM : ApMid S s) (hw : ApV w W) : ApIns (fun i => (S i).attiUpdate (w i)) (fun i => (s i).attiUpdate (W i)) ∧
    ApQ (fun i => preQbn (S i) (w i)) (fun i => preQbn (s i) (W i)) := by
  have qbb := ApQ.rv (fun i => (hg i).body) (Ap.gyroToRv hw h.gyroPre)
  have qnn := (ApQ.rv (fun i => (hg i).zeta) ((hM.ie.add hM.en).vs h.dt)).conj
  have qbn := ((qnn.mul h.Qbn).mul qbb).normalized m hm (fun i => (hg i).nsq)
  exact ⟨⟨h.pos, h.vn, h.dvn, ApM.toRot qbn, qbn, h.Qne, h.dt, h.gyroPre, h.accePre⟩, (qnn.mul h.Qbn).mul qbb⟩

/-- What keeps one sample regular. -/
structure Good (m : ℝ) (s : Ins ℝ) (M : Imu ℝ) : Prop where
  ex : GoodEx m s
  pos : GoodPos m (afterVel s M)
  att : GoodAtt m (afterVel s M).positionUpdate (Ins.compensate s.dt M.gyro s.nav.gb s.nav.gs)

theorem ApIns.of {S : ι → Ins ℝ} {s : (i : ι) → Ins (RR (Sit.R i))} (h : ∀ a : Slot, Ap (fun i => a.of (S i)) (fun i => a.of (s i))) : ApIns S s :=
  ⟨fun j => h (.pos j), fun j => h (.vn j), fun j => h (.dvn j), fun j k => h (.cbn j k), ⟨h (.qbn 0), h (.qbn 1), h (.qbn 2), h (.qbn 3)⟩, ⟨h (.qne 0), h (.qne 1), h (.qne 2), h (.qne 3)⟩,
    h .dt, fun j => h (.gyroPre j), fun j => h (.accePre j)⟩

theorem ap_step {S : ι → Ins ℝ} {s : (i : ι) → Ins (RR (Sit.R i))} {M : ι → Imu ℝ} {mm : (i : ι) → Imu (RR (Sit.R i))} (g : ι → ℝ) (G : (i : ι) → RR (Sit.R i)) (m : ℝ) (hm : 0 < m)
    (hg : ∀ i, Good m (S i) (M i)) (hs : ∀ a : Slot, Ap (fun i => a.of (S i)) (fun i => a.of (s i)))
    (h1 : ApV (fun i => (M i).gyro) (fun i => (mm i).gyro)) (h2 : ApV (fun i => (M i).acce) (fun i => (mm i).acce)) :
    (∀ a : Slot, Ap (fun i => a.of ((S i).forwardImu (g i) (M i)).2) (fun i => a.of ((s i).forwardImu (G i) (mm i)).2)) ∧
    ApQ (fun i => preQne (afterVel (S i) (M i))) (fun i => preQne (afterVel (s i) (mm i))) ∧
    ApQ (fun i => preQbn (afterVel (S i) (M i)).positionUpdate (Ins.compensate (S i).dt (M i).gyro (S i).nav.gb (S i).nav.gs))
      (fun i => preQbn (afterVel (s i) (mm i)).positionUpdate (Ins.compensate (s i).dt (mm i).gyro (s i).nav.gb (s i).nav.gs)) := by
  have h := ApIns.of hs
  have ha := Ap.compensate h.dt h2 (fun j => hs (.ab j)) (fun j => hs (.as j))
  have hw := Ap.compensate h.dt h1 (fun j => hs (.gb j)) (fun j => hs (.gs j))
  obtain ⟨hgr, hmid⟩ := ap_extrapolate m hm (fun i => (hg i).ex) h
  have h' : ApIns (fun i => (S i).extrapolate.2) (fun i => (s i).extrapolate.2) := ⟨h.pos, h.vn, h.dvn, h.Cbn, h.Qbn, h.Qne, h.dt, h.gyroPre, h.accePre⟩
  obtain ⟨hv, hvm⟩ := ap_velocity m hm (fun i => (hg i).ex.latMid) (fun i => (hg i).ex.heightMid) hgr h' hmid ha hw
  obtain ⟨hp, hpm, hq⟩ := ap_position m hm (fun i => (hg i).pos) hv hvm
  obtain ⟨hat, hqb⟩ := ap_attitude m hm (fun i => (hg i).att) hp hpm hw
  refine ⟨?_, hq, hqb⟩
  intro a
  cases a with
  | pos j => exact hat.pos j
  | vn j => exact hat.vn j
  | dvn j => exact hat.dvn j
  | cbn j k => exact hat.Cbn j k
  | qbn j =>
    fin_cases j
    · exact hat.Qbn.w
    · exact hat.Qbn.x
    · exact hat.Qbn.y
    · exact hat.Qbn.z
  | qne j =>
    fin_cases j
    · exact hat.Qne.w
    · exact hat.Qne.x
    · exact hat.Qne.y
    · exact hat.Qne.z
  | dt => exact hat.dt
  | gyroPre j => exact hw j
  | accePre j => exact ha j
  | gb j => exact hs (.gb j)
  | ab j => exact hs (.ab j)
  | gs j => exact hs (.gs j)
  | as j => exact hs (.as j)
end Verif.Props
