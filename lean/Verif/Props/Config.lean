import Verif.Model.Config
import Verif.Model.Api
import Verif.Spec.Fusion
import Verif.Lemmas.Real
import Mathlib.Tactic.Linarith
import Mathlib.Tactic.FinCases
import Mathlib.Tactic.NormNum
/-! Configuration files and the options derived from them. -/
namespace Verif.Props
open Verif Verif.Spec
variable {α : Type} [Add α] [Sub α] [Mul α] [Neg α] [Div α] [Zero α] [One α] [Fl α]

/-- Document `y` contains everything document `doc` contains. -/
def contains (y doc : Yaml α) : Prop := ∀ k v, doc k = some v → y k = some v

/-- The keys `LoadFrom` requires and `SaveTo` does not write. -/
def missing : List Key :=
  [.enableRts, .outFormat, .outPos 0, .outPos 1, .outPos 2, .outAtti 0, .outAtti 1, .outAtti 2, .gnssScale,
   .pressEnable, .pressPath, .pressStd]

/-- C63, the violation: no saved configuration can be loaded, whatever it contains. -/
theorem C63_saved_never_loads (toInt : α → Int) (files : String → Option (Config.ParaFile α)) (cfg c0 : Config α) :
    Config.loadFrom files c0 (cfg.saveTo toInt) = none := by
  have h : (cfg.saveTo toInt).bool .enableRts = none := rfl
  have h1 : (cfg.saveTo toInt).num .startTime = some cfg.startTime := rfl
  have h2 : (cfg.saveTo toInt).num .stopTime = some cfg.stopTime := rfl
  simp only [Config.loadFrom, h, h1, h2]
  rfl

/-- The same for the free function `SaveConfig`. -/
theorem C63_saveConfig_never_loads (toInt : α → Int) (files : String → Option (Config.ParaFile α)) (cfg c0 : Config α) :
    Config.loadFrom files c0 (cfg.saveConfig toInt) = none := by
  have h : (cfg.saveConfig toInt).num .startTime = none := rfl
  simp only [Config.loadFrom, h]
  rfl

theorem num_of {y doc : Yaml α} (h : contains y doc) {k : Key} {x : α} (e : doc k = some (.num x)) :
    y.num k = some x := by simp [Yaml.num, h k _ e]
theorem int_of {y doc : Yaml α} (h : contains y doc) {k : Key} {x : Int} (e : doc k = some (.int x)) :
    y.int k = some x := by simp [Yaml.int, h k _ e]
theorem numi_of {y doc : Yaml α} (h : contains y doc) {k : Key} {x : Int} (e : doc k = some (.int x)) :
    y.num k = some (ofI x) := by simp [Yaml.num, h k _ e]
theorem bool_of {y doc : Yaml α} (h : contains y doc) {k : Key} {x : Bool} (e : doc k = some (.bool x)) :
    y.bool k = some x := by simp [Yaml.bool, h k _ e]
theorem str_of {y doc : Yaml α} (h : contains y doc) {k : Key} {x : String} (e : doc k = some (.str x)) :
    y.str k = some x := by simp [Yaml.str, h k _ e]
theorem num3_of {y doc : Yaml α} (h : contains y doc) {k : Fin 3 → Key} {x : V3 α}
    (e : ∀ i, doc (k i) = some (.num (x i))) : y.num3 k = some x := by
  simp only [Yaml.num3, num_of h (e 0), num_of h (e 1), num_of h (e 2)]
  show some (v3 (x 0) (x 1) (x 2)) = some x
  congr 1
  funext i
  fin_cases i <;> rfl

theorem loadImuPara_rest (files : String → Option (Config.ParaFile α)) (c : Config α) :
    ∃ q, (Config.loadImuPara files c).2 = { c with imu := { c.imu with para := q } } := by
  unfold Config.loadImuPara
  cases files c.imu.parameterPath with
  | none => exact ⟨c.imu.para, rfl⟩
  | some p =>
    dsimp only
    cases Config.readPara p with
    | none => exact ⟨c.imu.para, rfl⟩
    | some q => exact ⟨q, rfl⟩

/-- What is the same in two configurations: every setting `SaveTo` writes and `LoadFrom` reads, except
the velocity threshold. -/
structure sameSaved (c d : Config α) : Prop where
  start : c.startTime = d.startTime
  stop : c.stopTime = d.stopTime
  outPath : c.output.filePath = d.output.filePath
  outProject : c.output.projectEnable = d.output.projectEnable
  imu : c.imu.filePath = d.imu.filePath ∧ c.imu.dRate = d.imu.dRate ∧ c.imu.format = d.imu.format ∧
    c.imu.frame = d.imu.frame ∧ c.imu.parameterPath = d.imu.parameterPath
  gnss : c.gnss.enable = d.gnss.enable ∧ c.gnss.filePath = d.gnss.filePath ∧ c.gnss.format = d.gnss.format ∧
    c.gnss.levelArm = d.gnss.levelArm ∧ c.gnss.doubleAntenna = d.gnss.doubleAntenna ∧ c.gnss.pitch = d.gnss.pitch ∧
    c.gnss.yaw = d.gnss.yaw
  columns : ∀ i : Fin 9, i.val < 3 → c.gnss.index i = d.gnss.index i
  odo : c.odo = d.odo
  zupt : c.zupt = d.zupt
  mode : c.align.mode = d.align.mode
  pva : c.align.initPva.week = d.align.initPva.week ∧ c.align.initPva.gpst = d.align.initPva.gpst ∧
    c.align.initPva.lat = d.align.initPva.lat ∧ c.align.initPva.lon = d.align.initPva.lon ∧
    c.align.initPva.height = d.align.initPva.height ∧ c.align.initPva.vn = d.align.initPva.vn ∧
    c.align.initPva.atti = d.align.initPva.atti
  outage : c.outage = d.outage

/-- C63, what holds: if the missing keys are added to a saved file by hand and it then loads, every setting
that was saved comes back, except that the velocity threshold is truncated to an integer. -/
theorem C63_round_trip_partial (toInt : α → Int) (files : String → Option (Config.ParaFile α))
    (cfg c0 c : Config α) (y : Yaml α) (hy : contains y (cfg.saveTo toInt))
    (h : Config.loadFrom files c0 y = some c) :
    sameSaved c cfg ∧ c.align.velThreshold = ofI (toInt cfg.align.velThreshold) := by
  unfold Config.loadFrom at h
  simp only [num_of hy (k := .startTime) rfl, num_of hy (k := .stopTime) rfl, str_of hy (k := .outPath) rfl,
    bool_of hy (k := .outProject) rfl, str_of hy (k := .imuPath) rfl, int_of hy (k := .imuRate) rfl,
    int_of hy (k := .imuFormat) rfl, str_of hy (k := .imuPara) rfl, int_of hy (k := .imuFrame) rfl,
    bool_of hy (k := .gnssEnable) rfl, str_of hy (k := .gnssPath) rfl, int_of hy (k := .gnssFormat) rfl,
    num3_of hy (k := .gnssArm) (fun _ => rfl), bool_of hy (k := .gnssDouble) rfl, num_of hy (k := .gnssPitch) rfl,
    num_of hy (k := .gnssYaw) rfl, bool_of hy (k := .odoEnable) rfl, num_of hy (k := .odoStd) rfl,
    str_of hy (k := .odoPath) rfl, bool_of hy (k := .odoNhc) rfl, num_of hy (k := .odoNhcStd 0) rfl,
    num_of hy (k := .odoNhcStd 1) rfl, num3_of hy (k := .odoAngle) (fun _ => rfl), num3_of hy (k := .odoArm) (fun _ => rfl),
    num_of hy (k := .odoScale) rfl, num_of hy (k := .odoScaleStd) rfl, int_of hy (k := .gnssColumns 0) rfl,
    int_of hy (k := .gnssColumns 1) rfl, int_of hy (k := .gnssColumns 2) rfl, bool_of hy (k := .zuptEnable) rfl,
    bool_of hy (k := .zuptaEnable) rfl, num_of hy (k := .zuptStd) rfl, num_of hy (k := .zuptaStd) rfl,
    int_of hy (k := .zuptWindow) rfl, int_of hy (k := .zuptWide) rfl, num_of hy (k := .zuptThreshold) rfl,
    int_of hy (k := .alignMode) rfl, numi_of hy (k := .alignVel) rfl, int_of hy (k := .pvaWeek) rfl,
    num_of hy (k := .pvaGpst) rfl, num_of hy (k := .pvaLat) rfl, num_of hy (k := .pvaLon) rfl,
    num_of hy (k := .pvaHeight) rfl, num3_of hy (k := .pvaVn) (fun _ => rfl), num3_of hy (k := .pvaAtti) (fun _ => rfl),
    bool_of hy (k := .outageEnable) rfl, num_of hy (k := .outageStart) rfl, num_of hy (k := .outageStop) rfl,
    num_of hy (k := .outageStep) rfl, num_of hy (k := .outageLen) rfl,
    Option.bind_eq_bind, Option.bind_some] at h
  simp only [Option.bind_eq_some_iff] at h
  obtain ⟨rts, _, fmt, _, op, _, oa, _, sc, _, pe, _, pp, _, ps, _, h⟩ := h
  have h := Option.some.inj h
  obtain ⟨q, hq⟩ := loadImuPara_rest files _
  rw [hq] at h
  subst h
  refine ⟨⟨rfl, rfl, rfl, rfl, ⟨rfl, rfl, rfl, rfl, rfl⟩, ⟨rfl, rfl, rfl, rfl, rfl, rfl, rfl⟩, ?_, ?_, rfl, rfl,
    ⟨rfl, rfl, rfl, rfl, rfl, rfl, rfl⟩, rfl⟩, rfl⟩
  · intro i hi
    dsimp only
    have : i = 0 ∨ i = 1 ∨ i = 2 := by
      rcases i with ⟨i, hi'⟩
      simp only [Fin.ext_iff] at *
      have : i < 3 := hi
      show i = 0 ∨ i = 1 ∨ i = 2
      omega
    rcases this with rfl | rfl | rfl <;> rfl
  · dsimp only
    have : (fun i : Fin 2 => if i = 0 then cfg.odo.nhcStd 0 else cfg.odo.nhcStd 1) = cfg.odo.nhcStd := by
      funext i; fin_cases i <;> rfl
    rw [this]

/-- The free function `SaveConfig` stores the ZUPT switch in place of the ZUPTA switch: whatever loads from
a file containing its output has both switches equal. -/
theorem C63_saveConfig_loses_zupta (toInt : α → Int) (files : String → Option (Config.ParaFile α))
    (cfg c0 c : Config α) (y : Yaml α) (hy : contains y (cfg.saveConfig toInt))
    (h : Config.loadFrom files c0 y = some c) : c.zupt.zuptaEnable = cfg.zupt.zuptEnable := by
  unfold Config.loadFrom at h
  obtain ⟨_, _, h⟩ := Option.bind_eq_some_iff.mp h
  obtain ⟨_, _, h⟩ := Option.bind_eq_some_iff.mp h
  obtain ⟨_, _, h⟩ := Option.bind_eq_some_iff.mp h
  obtain ⟨_, _, h⟩ := Option.bind_eq_some_iff.mp h
  obtain ⟨_, _, h⟩ := Option.bind_eq_some_iff.mp h
  obtain ⟨_, _, h⟩ := Option.bind_eq_some_iff.mp h
  obtain ⟨_, _, h⟩ := Option.bind_eq_some_iff.mp h
  obtain ⟨_, _, h⟩ := Option.bind_eq_some_iff.mp h
  obtain ⟨_, _, h⟩ := Option.bind_eq_some_iff.mp h
  obtain ⟨_, _, h⟩ := Option.bind_eq_some_iff.mp h
  obtain ⟨_, _, h⟩ := Option.bind_eq_some_iff.mp h
  obtain ⟨_, _, h⟩ := Option.bind_eq_some_iff.mp h
  obtain ⟨_, _, h⟩ := Option.bind_eq_some_iff.mp h
  obtain ⟨_, _, h⟩ := Option.bind_eq_some_iff.mp h
  obtain ⟨_, _, h⟩ := Option.bind_eq_some_iff.mp h
  obtain ⟨_, _, h⟩ := Option.bind_eq_some_iff.mp h
  obtain ⟨_, _, h⟩ := Option.bind_eq_some_iff.mp h
  obtain ⟨_, _, h⟩ := Option.bind_eq_some_iff.mp h
  obtain ⟨_, _, h⟩ := Option.bind_eq_some_iff.mp h
  obtain ⟨_, _, h⟩ := Option.bind_eq_some_iff.mp h
  obtain ⟨_, _, h⟩ := Option.bind_eq_some_iff.mp h
  obtain ⟨_, _, h⟩ := Option.bind_eq_some_iff.mp h
  obtain ⟨_, _, h⟩ := Option.bind_eq_some_iff.mp h
  obtain ⟨_, _, h⟩ := Option.bind_eq_some_iff.mp h
  obtain ⟨_, _, h⟩ := Option.bind_eq_some_iff.mp h
  obtain ⟨_, _, h⟩ := Option.bind_eq_some_iff.mp h
  obtain ⟨_, _, h⟩ := Option.bind_eq_some_iff.mp h
  obtain ⟨_, _, h⟩ := Option.bind_eq_some_iff.mp h
  obtain ⟨_, _, h⟩ := Option.bind_eq_some_iff.mp h
  obtain ⟨_, _, h⟩ := Option.bind_eq_some_iff.mp h
  obtain ⟨_, _, h⟩ := Option.bind_eq_some_iff.mp h
  obtain ⟨_, _, h⟩ := Option.bind_eq_some_iff.mp h
  obtain ⟨_, _, h⟩ := Option.bind_eq_some_iff.mp h
  obtain ⟨_, _, h⟩ := Option.bind_eq_some_iff.mp h
  obtain ⟨_, _, h⟩ := Option.bind_eq_some_iff.mp h
  obtain ⟨_, hz, h⟩ := Option.bind_eq_some_iff.mp h
  obtain ⟨_, _, h⟩ := Option.bind_eq_some_iff.mp h
  obtain ⟨_, _, h⟩ := Option.bind_eq_some_iff.mp h
  obtain ⟨_, _, h⟩ := Option.bind_eq_some_iff.mp h
  obtain ⟨_, _, h⟩ := Option.bind_eq_some_iff.mp h
  obtain ⟨_, _, h⟩ := Option.bind_eq_some_iff.mp h
  obtain ⟨_, _, h⟩ := Option.bind_eq_some_iff.mp h
  obtain ⟨_, _, h⟩ := Option.bind_eq_some_iff.mp h
  obtain ⟨_, _, h⟩ := Option.bind_eq_some_iff.mp h
  obtain ⟨_, _, h⟩ := Option.bind_eq_some_iff.mp h
  obtain ⟨_, _, h⟩ := Option.bind_eq_some_iff.mp h
  obtain ⟨_, _, h⟩ := Option.bind_eq_some_iff.mp h
  obtain ⟨_, _, h⟩ := Option.bind_eq_some_iff.mp h
  obtain ⟨_, _, h⟩ := Option.bind_eq_some_iff.mp h
  obtain ⟨_, _, h⟩ := Option.bind_eq_some_iff.mp h
  obtain ⟨_, _, h⟩ := Option.bind_eq_some_iff.mp h
  obtain ⟨_, _, h⟩ := Option.bind_eq_some_iff.mp h
  obtain ⟨_, _, h⟩ := Option.bind_eq_some_iff.mp h
  obtain ⟨_, _, h⟩ := Option.bind_eq_some_iff.mp h
  obtain ⟨_, _, h⟩ := Option.bind_eq_some_iff.mp h
  obtain ⟨_, _, h⟩ := Option.bind_eq_some_iff.mp h
  obtain ⟨_, _, h⟩ := Option.bind_eq_some_iff.mp h
  obtain ⟨_, _, h⟩ := Option.bind_eq_some_iff.mp h
  rw [bool_of hy (k := .zuptaEnable) rfl] at hz
  have hz := Option.some.inj hz
  have h := Option.some.inj h
  obtain ⟨q, hq⟩ := loadImuPara_rest files _
  rw [hq] at h
  subst h
  exact hz.symm

/-- The missing keys with some values. -/
def extra : Yaml α
  | .enableRts => some (.bool false)
  | .outFormat => some (.int 1)
  | .outPos _ => some (.int 0)
  | .outAtti _ => some (.int 0)
  | .gnssScale => some (.num 1)
  | .pressEnable => some (.bool false)
  | .pressPath => some (.str "")
  | .pressStd => some (.num 1)
  | _ => none

/-- A saved document completed by hand. -/
def completed (toInt : α → Int) (cfg : Config α) : Yaml α := fun k => (cfg.saveTo toInt k).or (extra k)

theorem completed_contains (toInt : α → Int) (cfg : Config α) : contains (completed toInt cfg) (cfg.saveTo toInt) := by
  intro k v h
  simp [completed, h]

/-- Every completed saved document does load, so the round trip is not vacuous. -/
theorem completed_loads (toInt : α → Int) (files : String → Option (Config.ParaFile α)) (cfg c0 : Config α) :
    ∃ c, Config.loadFrom files c0 (completed toInt cfg) = some c := ⟨_, rfl⟩

/-- C63: the missing keys are exactly the twelve listed. -/
theorem C63_missing_keys (toInt : α → Int) (cfg : Config α) (k : Key) :
    (k ∈ missing ↔ cfg.saveTo toInt k = none) := by
  cases k <;> simp [missing, Config.saveTo]
  all_goals (rename_i i; fin_cases i <;> simp)

section real
/-- C63, the truncation: a threshold of 1.5 m/s comes back as 1 m/s (the cast rounds towards zero). -/
theorem C63_threshold_truncated (files : String → Option (Config.ParaFile ℝ)) (cfg c0 c : Config ℝ)
    (hv : cfg.align.velThreshold = 3 / 2)
    (h : Config.loadFrom files c0 (completed (fun x => ⌊x⌋) cfg) = some c) :
    c.align.velThreshold = 1 ∧ c.align.velThreshold ≠ cfg.align.velThreshold := by
  have := (C63_round_trip_partial _ files cfg c0 c _ (completed_contains _ cfg) h).2
  rw [hv] at this
  have hf : ⌊(3 / 2 : ℝ)⌋ = 1 := by rw [Int.floor_eq_iff]; norm_num
  rw [hf] at this
  have h1 : c.align.velThreshold = 1 := by rw [this]; simp [ofI]
  exact ⟨h1, by rw [h1, hv]; norm_num⟩

/-- C64: angles are converted from degrees to radians, everything else is passed on, switches become 0 or 1,
and the three initial standard deviations are zero. -/
theorem C64_get_option (c : Config ℝ) :
    (∀ i, c.getOption.angleBv i = c.odo.angleBv i * (Real.pi / 180)) ∧
    (∀ i, c.getOption.attiProject i = c.output.attiProject i * (Real.pi / 180)) ∧
    (∀ i, c.getOption.posStd i = 0 ∧ c.getOption.velStd i = 0 ∧ c.getOption.attiStd i = 0) ∧
    c.getOption.imuPara = c.imu.para ∧ c.getOption.dRate = c.imu.dRate ∧ c.getOption.alignMode = c.align.mode ∧
    c.getOption.alignVelThreshold = c.align.velThreshold ∧ c.getOption.lbGnss = c.gnss.levelArm ∧
    c.getOption.gnssStdScale = c.gnss.scaleOfStd ∧ c.getOption.nhcStd = c.odo.nhcStd ∧
    c.getOption.zuptStd = c.zupt.zuptStd ∧ c.getOption.zuptaStd = c.zupt.zuptaStd ∧
    c.getOption.odoStd = c.odo.odometerStd ∧ c.getOption.odoScale = c.odo.scaleFactor ∧
    c.getOption.odoScaleStd = c.odo.scaleFactorStd ∧ c.getOption.lbWheel = c.odo.wheelLevelArm ∧
    c.getOption.posProject = c.output.posProject ∧
    (c.getOption.enableGnss ≠ 0 ↔ c.gnss.enable) ∧ (c.getOption.nhcEnable ≠ 0 ↔ c.odo.nhcEnable) ∧
    (c.getOption.zuptEnable ≠ 0 ↔ c.zupt.zuptEnable) ∧ (c.getOption.zuptaEnable ≠ 0 ↔ c.zupt.zuptaEnable) ∧
    (c.getOption.odoEnable ≠ 0 ↔ c.odo.enable) ∧ (c.getOption.outputProjectEnable ≠ 0 ↔ c.output.projectEnable) ∧
    (c.getOption.enableRts ≠ 0 ↔ c.enableRts) := by
  have hb : ∀ b : Bool, (Config.b2i b ≠ 0 ↔ b = true) := by intro b; cases b <;> simp [Config.b2i]
  refine ⟨fun i => ?_, fun i => ?_, fun i => ?_, rfl, rfl, rfl, rfl, rfl, rfl, rfl, rfl, rfl, rfl, rfl, rfl, rfl, rfl,
    hb _, hb _, hb _, hb _, hb _, hb _, hb _⟩
  · simp [Config.getOption, deg]
  · simp [Config.getOption, deg]
  · fin_cases i <;> simp [Config.getOption, zero3, v3]

/-- C64, the consequence: starting with given values from a configuration file, the filter begins with zero
variance of position, velocity and attitude, whatever the file says. -/
theorem C64_use_given_starts_certain (c : Config ℝ) (g : ℝ) (junk : Fusion ℝ) (i : Fin 15) (hi : i.val < 9) (j : Fin 15) :
    (fstart g junk (makeNavEpoch c.align.initPva c.getOption) c.getOption).2.kf.P i j = 0 := by
  have hz : ∀ l, Fusion.initStd (makeNavEpoch c.align.initPva c.getOption) c.getOption i l = 0 := by
    intro l
    have h3 : ∀ k : Fin 3, (zero3 : V3 ℝ) k = 0 := by intro k; fin_cases k <;> rfl
    have hd : diagM (zero3 : V3 ℝ) = 0 := by
      funext a b
      simp only [diagM, h3]
      split_ifs <;> rfl
    simp only [Fusion.initStd, makeNavEpoch, Config.getOption, hd, setBlock, Matrix.zero_apply]
    split_ifs <;> first | omega | rfl
  show mmul _ _ i j = 0
  rw [mmul_real, Matrix.mul_apply]
  exact Finset.sum_eq_zero fun l _ => by rw [hz l, zero_mul]

/-- C73: a parameter file that has all its keys is converted to SI units. -/
theorem C73_parameter_units (files : String → Option (Config.ParaFile ℝ)) (c : Config ℝ) (p : Config.ParaFile ℝ)
    (q : ImuPara ℝ) (hf : files c.imu.parameterPath = some p)
    (h1 : p.arw = some q.arw) (h2 : p.vrw = some q.vrw) (h3 : ∀ i, p.gbStd i = some (q.gbStd i))
    (h4 : ∀ i, p.gsStd i = some (q.gsStd i)) (h5 : ∀ i, p.asStd i = some (q.asStd i))
    (h6 : ∀ i, p.abStd i = some (q.abStd i)) (h7 : ∀ i, p.gbIni i = some (q.gbIni i))
    (h8 : ∀ i, p.gsIni i = some (q.gsIni i)) (h9 : ∀ i, p.abIni i = some (q.abIni i))
    (h10 : ∀ i, p.asIni i = some (q.asIni i)) (h11 : p.gtCorr = some q.gtCorr) (h12 : p.atCorr = some q.atCorr) :
    Config.loadImuPara files c = (true, { c with imu := { c.imu with para :=
      { arw := q.arw * (Real.pi / 180) / 60            -- degrees per root hour to radians per root second
        vrw := q.vrw / 60                               -- m/s per root hour to m/s per root second
        gbStd := fun i => q.gbStd i * (Real.pi / 180) / 3600   -- degrees per hour to radians per second
        gbIni := fun i => q.gbIni i * (Real.pi / 180) / 3600
        abStd := fun i => q.abStd i / 100000            -- milligal to m/s²
        abIni := fun i => q.abIni i / 100000
        gsStd := fun i => q.gsStd i / 1000000           -- parts per million
        gsIni := fun i => q.gsIni i / 1000000
        asStd := fun i => q.asStd i / 1000000
        asIni := fun i => q.asIni i / 1000000
        gtCorr := q.gtCorr * 3600                       -- hours to seconds
        atCorr := q.atCorr * 3600 } } }) := by
  have o3 : ∀ (f : Fin 3 → Option ℝ) (v : V3 ℝ), (∀ i, f i = some (v i)) → Config.opt3 f = some v := by
    intro f v h
    simp only [Config.opt3, h]
    show some (v3 (v 0) (v 1) (v 2)) = some v
    congr 1; funext i; fin_cases i <;> rfl
  have hr : Config.readPara p = some
      { arw := q.arw * (Real.pi / 180) / 60, vrw := q.vrw / 60
        gbStd := fun i => q.gbStd i * (Real.pi / 180) / 3600, gbIni := fun i => q.gbIni i * (Real.pi / 180) / 3600
        abStd := fun i => q.abStd i / 100000, abIni := fun i => q.abIni i / 100000
        gsStd := fun i => q.gsStd i / 1000000, gsIni := fun i => q.gsIni i / 1000000
        asStd := fun i => q.asStd i / 1000000, asIni := fun i => q.asIni i / 1000000
        gtCorr := q.gtCorr * 3600, atCorr := q.atCorr * 3600 } := by
    simp only [Config.readPara, h1, h2, o3 _ _ h3, o3 _ _ h4, o3 _ _ h5, o3 _ _ h6, o3 _ _ h7, o3 _ _ h8, o3 _ _ h9,
      o3 _ _ h10, h11, h12]
    show some _ = some _
    congr 1
    simp [deg, hour, mGal, ppm, div_eq_mul_inv]
  simp only [Config.loadImuPara, hf, hr]
end real

/-- C73: if the parameter file is missing or any key is missing, the parameters are left exactly as they
were; there are no half-updated parameters. -/
theorem C73_all_or_nothing (files : String → Option (Config.ParaFile α)) (c : Config α) :
    (Config.loadImuPara files c).1 = false → (Config.loadImuPara files c).2 = c := by
  unfold Config.loadImuPara
  cases files c.imu.parameterPath with
  | none => intro _; rfl
  | some p =>
    dsimp only
    cases Config.readPara p with
    | none => intro _; rfl
    | some q => intro h; simp at h

/-- C73: a single missing key is enough. -/
theorem C73_missing_key_fails (files : String → Option (Config.ParaFile α)) (c : Config α) (p : Config.ParaFile α)
    (hf : files c.imu.parameterPath = some p)
    (h : p.arw = none ∨ p.vrw = none ∨ (∃ i, p.gbStd i = none) ∨ (∃ i, p.gsStd i = none) ∨ (∃ i, p.asStd i = none) ∨
      (∃ i, p.abStd i = none) ∨ (∃ i, p.gbIni i = none) ∨ (∃ i, p.gsIni i = none) ∨ (∃ i, p.abIni i = none) ∨
      (∃ i, p.asIni i = none) ∨ p.gtCorr = none ∨ p.atCorr = none) :
    Config.loadImuPara files c = (false, c) := by
  have o3 : ∀ (f : Fin 3 → Option α), (∃ i, f i = none) → Config.opt3 f = none := by
    rintro f ⟨i, hi⟩
    unfold Config.opt3
    fin_cases i
    · simp only [show f 0 = none from hi]; rfl
    · cases f 0 <;> simp only [show f 1 = none from hi] <;> rfl
    · cases f 0 <;> cases f 1 <;> simp only [show f 2 = none from hi] <;> rfl
  have hr : Config.readPara p = none := by
    by_contra hc
    obtain ⟨q, hq⟩ := Option.ne_none_iff_exists'.mp hc
    unfold Config.readPara at hq
    obtain ⟨_, a1, hq⟩ := Option.bind_eq_some_iff.mp hq
    obtain ⟨_, a2, hq⟩ := Option.bind_eq_some_iff.mp hq
    obtain ⟨_, a3, hq⟩ := Option.bind_eq_some_iff.mp hq
    obtain ⟨_, a4, hq⟩ := Option.bind_eq_some_iff.mp hq
    obtain ⟨_, a5, hq⟩ := Option.bind_eq_some_iff.mp hq
    obtain ⟨_, a6, hq⟩ := Option.bind_eq_some_iff.mp hq
    obtain ⟨_, a7, hq⟩ := Option.bind_eq_some_iff.mp hq
    obtain ⟨_, a8, hq⟩ := Option.bind_eq_some_iff.mp hq
    obtain ⟨_, a9, hq⟩ := Option.bind_eq_some_iff.mp hq
    obtain ⟨_, a10, hq⟩ := Option.bind_eq_some_iff.mp hq
    obtain ⟨_, a11, hq⟩ := Option.bind_eq_some_iff.mp hq
    obtain ⟨_, a12, hq⟩ := Option.bind_eq_some_iff.mp hq
    rcases h with h | h | h | h | h | h | h | h | h | h | h | h
    · simp [h] at a1
    · simp [h] at a2
    · simp [o3 _ h] at a3
    · simp [o3 _ h] at a4
    · simp [o3 _ h] at a5
    · simp [o3 _ h] at a6
    · simp [o3 _ h] at a7
    · simp [o3 _ h] at a8
    · simp [o3 _ h] at a9
    · simp [o3 _ h] at a10
    · simp [h] at a11
    · simp [h] at a12
  simp only [Config.loadImuPara, hf, hr]

/-- C73's hypotheses are met: a complete parameter file, with an angular random walk of 0.3 degrees per root hour. -/
example (c : Config ℝ) : ∃ files : String → Option (Config.ParaFile ℝ),
    (Config.loadImuPara files c).1 = true ∧ (Config.loadImuPara files c).2.imu.para.arw = 0.3 * (Real.pi / 180) / 60 := by
  let v : V3 ℝ := ![1, 2, 3]
  let p : Config.ParaFile ℝ := ⟨some 0.3, some 0.1, fun i => some (v i), fun i => some (v i), fun i => some (v i), fun i => some (v i),
    fun i => some (v i), fun i => some (v i), fun i => some (v i), fun i => some (v i), some 4, some 4⟩
  let q : ImuPara ℝ := { arw := 0.3, vrw := 0.1, gbStd := v, gsStd := v, asStd := v, abStd := v, gbIni := v, gsIni := v, abIni := v, asIni := v, gtCorr := 4, atCorr := 4 }
  refine ⟨fun _ => some p, ?_⟩
  rw [C73_parameter_units (fun _ => some p) c p q rfl rfl rfl (fun _ => rfl)
    (fun _ => rfl) (fun _ => rfl) (fun _ => rfl) (fun _ => rfl) (fun _ => rfl) (fun _ => rfl) (fun _ => rfl) rfl rfl]
  exact ⟨rfl, rfl⟩

/-- And a file without the first key is refused. -/
example (c : Config ℝ) : ∃ files : String → Option (Config.ParaFile ℝ), Config.loadImuPara files c = (false, c) :=
  ⟨fun _ => some ⟨none, some 0.1, fun _ => some 1, fun _ => some 1, fun _ => some 1, fun _ => some 1,
    fun _ => some 1, fun _ => some 1, fun _ => some 1, fun _ => some 1, some 4, some 4⟩,
    C73_missing_key_fails _ c _ rfl (Or.inl rfl)⟩

/-- C63's hypotheses are met: the completed document of any configuration with a threshold of 1.5 m/s loads. -/
example (files : String → Option (Config.ParaFile ℝ)) (cfg c0 : Config ℝ) (hv : cfg.align.velThreshold = 3 / 2) :
    ∃ c, Config.loadFrom files c0 (completed (fun x => ⌊x⌋) cfg) = some c ∧ c.align.velThreshold = 1 := by
  obtain ⟨c, hc⟩ := completed_loads (fun x => ⌊x⌋) files cfg c0
  exact ⟨c, hc, (C63_threshold_truncated files cfg c0 c hv hc).1⟩
end Verif.Props
